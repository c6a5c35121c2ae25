import Verif.Lemmas.GameData.Floor
import Verif.Model.GameData.Drk

/-!
# The data of DRK for a version between two listed ones

Generated by `tools/floor.py`: method by method, the data for a version is that for the latest listed
version that is not above it.
-/

set_option linter.unnecessarySeqFocus false
set_option linter.unusedSimpArgs false

namespace Ama.GameData.Drk

theorem get_darkside_buff_floor (e : Env) : get_darkside_buff e.floor = get_darkside_buff e := rfl

theorem auto_floor (e : Env) : auto e.floor = auto e := rfl

theorem hard_slash_floor (e : Env) :
    hard_slash e.floor = hard_slash e := by
  simp only [hard_slash, getPotency_floor]

theorem syphon_strike_floor (e : Env) :
    syphon_strike e.floor = syphon_strike e := by
  simp only [syphon_strike, getPotency_floor, getPotencyNoCombo_floor]

theorem unleash_floor (e : Env) :
    unleash e.floor = unleash e := by
  simp only [unleash, getPotency_floor]

theorem unmend_floor (e : Env) :
    unmend e.floor = unmend e := by
  simp only [unmend, getPotency_floor]

theorem souleater_floor (e : Env) :
    souleater e.floor = souleater e := by
  simp only [souleater, getPotency_floor, getPotencyNoCombo_floor]

theorem flood_of_shadow_floor (e : Env) :
    flood_of_shadow e.floor = flood_of_shadow e := by
  simp only [flood_of_shadow, getPotency_floor, get_darkside_buff_floor]

theorem stalwart_soul_floor (e : Env) :
    stalwart_soul e.floor = stalwart_soul e := by
  simp only [stalwart_soul, getPotency_floor, getPotencyNoCombo_floor]

theorem edge_of_shadow_floor (e : Env) :
    edge_of_shadow e.floor = edge_of_shadow e := by
  simp only [edge_of_shadow, getPotency_floor, get_darkside_buff_floor]

theorem salted_earth_floor (e : Env) :
    salted_earth e.floor = salted_earth e := by
  simp only [salted_earth, getPotency_floor]

theorem salt_and_darkness_floor (e : Env) :
    salt_and_darkness e.floor = salt_and_darkness e := by
  simp only [salt_and_darkness, getPotency_floor]

theorem plunge_floor (e : Env) :
    plunge e.floor = plunge e := by
  simp only [plunge, floor_ge, getPotency_floor]

theorem abyssal_drain_floor (e : Env) :
    abyssal_drain e.floor = abyssal_drain e := by
  simp only [abyssal_drain, getPotency_floor]

theorem carve_and_spit_floor (e : Env) :
    carve_and_spit e.floor = carve_and_spit e := by
  simp only [carve_and_spit, getPotency_floor]

theorem bloodspiller_floor (e : Env) :
    bloodspiller e.floor = bloodspiller e := by
  simp only [bloodspiller, getPotency_floor]

theorem quietus_floor (e : Env) :
    quietus e.floor = quietus e := by
  simp only [quietus, getPotency_floor]

theorem shadowbringer_floor (e : Env) :
    shadowbringer e.floor = shadowbringer e := by
  simp only [shadowbringer, getPotency_floor]

theorem living_shadow_floor (e : Env) :
    living_shadow e.floor = living_shadow e := by
  simp only [living_shadow, floor_ge, getSkillData_floor]

theorem scarlet_delirium_floor (e : Env) :
    scarlet_delirium e.floor = scarlet_delirium e := by
  simp only [scarlet_delirium, getPotency_floor] <;> rfl

theorem comeuppance_floor (e : Env) :
    comeuppance e.floor = comeuppance e := by
  simp only [comeuppance, getPotency_floor] <;> rfl

theorem torcleaver_floor (e : Env) :
    torcleaver e.floor = torcleaver e := by
  simp only [torcleaver, getPotency_floor] <;> rfl

theorem impalement_floor (e : Env) :
    impalement e.floor = impalement e := by
  simp only [impalement, getPotency_floor] <;> rfl

theorem disesteem_floor (e : Env) :
    disesteem e.floor = disesteem e := by
  simp only [disesteem, getPotency_floor] <;> rfl

theorem rampart_floor (e : Env) : rampart e.floor = rampart e := rfl

theorem provoke_floor (e : Env) : provoke e.floor = provoke e := rfl

theorem reprisal_floor (e : Env) : reprisal e.floor = reprisal e := rfl

theorem arms_length_floor (e : Env) : arms_length e.floor = arms_length e := rfl

theorem shirk_floor (e : Env) : shirk e.floor = shirk e := rfl

theorem delirium_floor (e : Env) : delirium e.floor = delirium e := rfl

theorem blood_weapon_floor (e : Env) : blood_weapon e.floor = blood_weapon e := rfl

theorem shadowstride_floor (e : Env) : shadowstride e.floor = shadowstride e := rfl

theorem the_blackest_night_floor (e : Env) : the_blackest_night e.floor = the_blackest_night e := rfl

theorem oblation_floor (e : Env) : oblation e.floor = oblation e := rfl

theorem job_floor (e : Env) :
    job e.floor = job e := by
  simp only [job, abyssal_drain_floor, arms_length_floor, auto_floor, blood_weapon_floor,
    bloodspiller_floor, carve_and_spit_floor, comeuppance_floor, delirium_floor, disesteem_floor,
    edge_of_shadow_floor, flood_of_shadow_floor, hard_slash_floor, impalement_floor,
    living_shadow_floor, oblation_floor, plunge_floor, provoke_floor, quietus_floor, rampart_floor,
    reprisal_floor, salt_and_darkness_floor, salted_earth_floor, scarlet_delirium_floor,
    shadowbringer_floor, shadowstride_floor, shirk_floor, souleater_floor, stalwart_soul_floor,
    syphon_strike_floor, the_blackest_night_floor, torcleaver_floor, unleash_floor, unmend_floor]

end Ama.GameData.Drk
