import Verif.Lemmas.GameData.Floor
import Verif.Model.GameData.Smn

/-!
# The data of SMN for a version between two listed ones

Generated by `tools/floor.py`: method by method, the data for a version is that for the latest listed
version that is not above it.
-/

set_option linter.unnecessarySeqFocus false
set_option linter.unusedSimpArgs false

namespace Ama.GameData.Smn

theorem attr_smn_caster_tax_ms_floor (e : Env) : attr_smn_caster_tax_ms e.floor = attr_smn_caster_tax_ms e := rfl

theorem attr_base_animation_lock_floor (e : Env) : attr_base_animation_lock e.floor = attr_base_animation_lock e := rfl

theorem attr_smn_instant_timing_spec_floor (e : Env) :
    attr_smn_instant_timing_spec e.floor = attr_smn_instant_timing_spec e := by
  simp only [attr_smn_instant_timing_spec, attr_base_animation_lock_floor]

theorem auto_floor (e : Env) : auto e.floor = auto e := rfl

theorem fester_floor (e : Env) :
    fester e.floor = fester e := by
  simp only [fester, getPotency_floor, attr_base_animation_lock_floor] <;> rfl

theorem energy_drain_floor (e : Env) :
    energy_drain e.floor = energy_drain e := by
  simp only [energy_drain, getPotency_floor, attr_base_animation_lock_floor,
    attr_smn_caster_tax_ms_floor]

theorem painflare_floor (e : Env) :
    painflare e.floor = painflare e := by
  simp only [painflare, getPotency_floor, attr_base_animation_lock_floor, attr_smn_caster_tax_ms_floor]

theorem energy_siphon_floor (e : Env) :
    energy_siphon e.floor = energy_siphon e := by
  simp only [energy_siphon, getPotency_floor, attr_base_animation_lock_floor]

theorem ruin_iii_floor (e : Env) :
    ruin_iii e.floor = ruin_iii e := by
  simp only [ruin_iii, getSkillData_floor, getPotency_floor, attr_smn_caster_tax_ms_floor]

theorem astral_impulse_floor (e : Env) :
    astral_impulse e.floor = astral_impulse e := by
  simp only [astral_impulse, getPotency_floor, attr_base_animation_lock_floor]

theorem astral_flare_floor (e : Env) :
    astral_flare e.floor = astral_flare e := by
  simp only [astral_flare, getPotency_floor, attr_base_animation_lock_floor]

theorem deathflare_floor (e : Env) :
    deathflare e.floor = deathflare e := by
  simp only [deathflare, getPotency_floor, attr_base_animation_lock_floor]

theorem ruin_iv_floor (e : Env) :
    ruin_iv e.floor = ruin_iv e := by
  simp only [ruin_iv, getPotency_floor, attr_base_animation_lock_floor]

theorem searing_light_floor (e : Env) :
    searing_light e.floor = searing_light e := by
  simp only [searing_light, getSkillData_floor, attr_smn_instant_timing_spec_floor]

theorem get_akh_morn_for_follow_up_floor (e : Env) :
    get_akh_morn_for_follow_up e.floor = get_akh_morn_for_follow_up e := by
  simp only [get_akh_morn_for_follow_up, getPotency_floor]

theorem enkindle_bahamut_floor (e : Env) :
    enkindle_bahamut e.floor = enkindle_bahamut e := by
  simp only [enkindle_bahamut, attr_smn_instant_timing_spec_floor, get_akh_morn_for_follow_up_floor]

theorem akh_morn_floor (e : Env) :
    akh_morn e.floor = akh_morn e := by
  simp only [akh_morn, attr_smn_instant_timing_spec_floor, get_akh_morn_for_follow_up_floor]

theorem ruby_rite_floor (e : Env) :
    ruby_rite e.floor = ruby_rite e := by
  simp only [ruby_rite, getPotency_floor, attr_smn_caster_tax_ms_floor]

theorem topaz_rite_floor (e : Env) :
    topaz_rite e.floor = topaz_rite e := by
  simp only [topaz_rite, getPotency_floor, attr_base_animation_lock_floor]

theorem emerald_rite_floor (e : Env) :
    emerald_rite e.floor = emerald_rite e := by
  simp only [emerald_rite, getPotency_floor, attr_base_animation_lock_floor]

theorem tri_disaster_floor (e : Env) :
    tri_disaster e.floor = tri_disaster e := by
  simp only [tri_disaster, getPotency_floor, attr_base_animation_lock_floor]

theorem fountain_of_fire_floor (e : Env) :
    fountain_of_fire e.floor = fountain_of_fire e := by
  simp only [fountain_of_fire, getPotency_floor, attr_base_animation_lock_floor]

theorem brand_of_purgatory_floor (e : Env) :
    brand_of_purgatory e.floor = brand_of_purgatory e := by
  simp only [brand_of_purgatory, getPotency_floor, attr_base_animation_lock_floor]

theorem get_revelation_follow_up_floor (e : Env) :
    get_revelation_follow_up e.floor = get_revelation_follow_up e := by
  simp only [get_revelation_follow_up, getPotency_floor, attr_smn_instant_timing_spec_floor]

theorem enkindle_phoenix_floor (e : Env) :
    enkindle_phoenix e.floor = enkindle_phoenix e := by
  simp only [enkindle_phoenix, attr_smn_instant_timing_spec_floor, get_revelation_follow_up_floor]

theorem revelation_floor (e : Env) :
    revelation e.floor = revelation e := by
  simp only [revelation, attr_smn_instant_timing_spec_floor, get_revelation_follow_up_floor]

theorem ruby_catastrophe_floor (e : Env) :
    ruby_catastrophe e.floor = ruby_catastrophe e := by
  simp only [ruby_catastrophe, getPotency_floor, attr_smn_caster_tax_ms_floor]

theorem topaz_catastrophe_floor (e : Env) :
    topaz_catastrophe e.floor = topaz_catastrophe e := by
  simp only [topaz_catastrophe, getPotency_floor, attr_base_animation_lock_floor]

theorem emerald_catastrophe_floor (e : Env) :
    emerald_catastrophe e.floor = emerald_catastrophe e := by
  simp only [emerald_catastrophe, getPotency_floor, attr_base_animation_lock_floor]

theorem crimson_cyclone_floor (e : Env) :
    crimson_cyclone e.floor = crimson_cyclone e := by
  simp only [crimson_cyclone, getPotency_floor, attr_base_animation_lock_floor]

theorem crimson_strike_floor (e : Env) :
    crimson_strike e.floor = crimson_strike e := by
  simp only [crimson_strike, getPotency_floor, attr_base_animation_lock_floor]

theorem mountain_buster_floor (e : Env) :
    mountain_buster e.floor = mountain_buster e := by
  simp only [mountain_buster, getPotency_floor, attr_base_animation_lock_floor]

theorem slipstream_floor (e : Env) :
    slipstream e.floor = slipstream e := by
  simp only [slipstream, getPotency_floor, attr_smn_caster_tax_ms_floor]

theorem summon_ifrit_ii_floor (e : Env) :
    summon_ifrit_ii e.floor = summon_ifrit_ii e := by
  simp only [summon_ifrit_ii, getPotency_floor, attr_smn_instant_timing_spec_floor]

theorem summon_titan_ii_floor (e : Env) :
    summon_titan_ii e.floor = summon_titan_ii e := by
  simp only [summon_titan_ii, getPotency_floor, attr_smn_instant_timing_spec_floor]

theorem summon_garuda_ii_floor (e : Env) :
    summon_garuda_ii e.floor = summon_garuda_ii e := by
  simp only [summon_garuda_ii, getPotency_floor, attr_smn_instant_timing_spec_floor]

theorem necrotize_floor (e : Env) :
    necrotize e.floor = necrotize e := by
  simp only [necrotize, getPotency_floor, attr_base_animation_lock_floor] <;> rfl

theorem searing_flash_floor (e : Env) :
    searing_flash e.floor = searing_flash e := by
  simp only [searing_flash, getPotency_floor, attr_base_animation_lock_floor] <;> rfl

theorem get_scarlet_flame_skill_for_follow_up_floor (e : Env) :
    get_scarlet_flame_skill_for_follow_up e.floor = get_scarlet_flame_skill_for_follow_up e := by
  simp only [get_scarlet_flame_skill_for_follow_up, getPotency_floor]

theorem scarlet_flame_floor (e : Env) :
    scarlet_flame e.floor = scarlet_flame e := by
  simp only [scarlet_flame, get_scarlet_flame_skill_for_follow_up_floor]

theorem summon_phoenix_floor (e : Env) :
    summon_phoenix e.floor = summon_phoenix e := by
  simp only [summon_phoenix, get_scarlet_flame_skill_for_follow_up_floor,
    attr_smn_instant_timing_spec_floor]

theorem get_wyrmwave_skill_for_follow_up_floor (e : Env) :
    get_wyrmwave_skill_for_follow_up e.floor = get_wyrmwave_skill_for_follow_up e := by
  simp only [get_wyrmwave_skill_for_follow_up, getPotency_floor]

theorem wyrmwave_floor (e : Env) :
    wyrmwave e.floor = wyrmwave e := by
  simp only [wyrmwave, get_wyrmwave_skill_for_follow_up_floor]

theorem summon_bahamut_floor (e : Env) :
    summon_bahamut e.floor = summon_bahamut e := by
  simp only [summon_bahamut, get_wyrmwave_skill_for_follow_up_floor, attr_smn_instant_timing_spec_floor]

theorem luxwave_floor (e : Env) (display_name : PyVal) :
    luxwave e.floor display_name = luxwave e display_name := by
  simp only [luxwave, getPotency_floor] <;> rfl

theorem summon_solar_bahamut_floor (e : Env) :
    summon_solar_bahamut e.floor = summon_solar_bahamut e := by
  simp only [summon_solar_bahamut, luxwave_floor, attr_smn_instant_timing_spec_floor] <;> rfl

theorem umbral_impulse_floor (e : Env) :
    umbral_impulse e.floor = umbral_impulse e := by
  simp only [umbral_impulse, getPotency_floor, attr_base_animation_lock_floor] <;> rfl

theorem umbral_flare_floor (e : Env) :
    umbral_flare e.floor = umbral_flare e := by
  simp only [umbral_flare, getPotency_floor, attr_base_animation_lock_floor] <;> rfl

theorem sunflare_floor (e : Env) :
    sunflare e.floor = sunflare e := by
  simp only [sunflare, getPotency_floor, attr_base_animation_lock_floor] <;> rfl

theorem get_exodus_follow_up_floor (e : Env) :
    get_exodus_follow_up e.floor = get_exodus_follow_up e := by
  simp only [get_exodus_follow_up, getPotency_floor, attr_smn_instant_timing_spec_floor] <;> rfl

theorem exodus_floor (e : Env) :
    exodus e.floor = exodus e := by
  simp only [exodus, attr_smn_instant_timing_spec_floor, get_exodus_follow_up_floor] <;> rfl

theorem enkindle_solar_bahamut_floor (e : Env) :
    enkindle_solar_bahamut e.floor = enkindle_solar_bahamut e := by
  simp only [enkindle_solar_bahamut, attr_smn_instant_timing_spec_floor, get_exodus_follow_up_floor] <;> rfl

theorem aethercharge_floor (e : Env) :
    aethercharge e.floor = aethercharge e := by
  simp only [aethercharge, attr_smn_instant_timing_spec_floor]

theorem swiftcast_floor (e : Env) :
    swiftcast e.floor = swiftcast e := by
  simp only [swiftcast, attr_smn_instant_timing_spec_floor]

theorem summon_carbuncle_floor (e : Env) :
    summon_carbuncle e.floor = summon_carbuncle e := by
  simp only [summon_carbuncle, attr_smn_caster_tax_ms_floor]

theorem summon_ifrit_floor (e : Env) :
    summon_ifrit e.floor = summon_ifrit e := by
  simp only [summon_ifrit, attr_smn_instant_timing_spec_floor]

theorem summon_titan_floor (e : Env) :
    summon_titan e.floor = summon_titan e := by
  simp only [summon_titan, attr_smn_instant_timing_spec_floor]

theorem summon_garuda_floor (e : Env) :
    summon_garuda e.floor = summon_garuda e := by
  simp only [summon_garuda, attr_smn_instant_timing_spec_floor]

theorem astral_flow_floor (e : Env) :
    astral_flow e.floor = astral_flow e := by
  simp only [astral_flow, attr_smn_instant_timing_spec_floor]

theorem job_floor (e : Env) :
    job e.floor = job e := by
  simp only [job, attr_smn_caster_tax_ms_floor, attr_base_animation_lock_floor,
    attr_smn_instant_timing_spec_floor, aethercharge_floor, akh_morn_floor, astral_flare_floor,
    astral_flow_floor, astral_impulse_floor, auto_floor, brand_of_purgatory_floor,
    crimson_cyclone_floor, crimson_strike_floor, deathflare_floor, emerald_catastrophe_floor,
    emerald_rite_floor, energy_drain_floor, energy_siphon_floor, enkindle_bahamut_floor,
    enkindle_phoenix_floor, enkindle_solar_bahamut_floor, exodus_floor, fester_floor,
    fountain_of_fire_floor, luxwave_floor, mountain_buster_floor, necrotize_floor, painflare_floor,
    revelation_floor, ruby_catastrophe_floor, ruby_rite_floor, ruin_iii_floor, ruin_iv_floor,
    scarlet_flame_floor, searing_flash_floor, searing_light_floor, slipstream_floor,
    summon_bahamut_floor, summon_carbuncle_floor, summon_garuda_floor, summon_garuda_ii_floor,
    summon_ifrit_floor, summon_ifrit_ii_floor, summon_phoenix_floor, summon_solar_bahamut_floor,
    summon_titan_floor, summon_titan_ii_floor, sunflare_floor, swiftcast_floor,
    topaz_catastrophe_floor, topaz_rite_floor, tri_disaster_floor, umbral_flare_floor,
    umbral_impulse_floor, wyrmwave_floor]

end Ama.GameData.Smn
