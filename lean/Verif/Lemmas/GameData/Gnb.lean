import Verif.Lemmas.GameData.Floor
import Verif.Model.GameData.Gnb

/-!
# The data of GNB for a version between two listed ones

Generated by `tools/floor.py`: method by method, the data for a version is that for the latest listed
version that is not above it.
-/

set_option linter.unnecessarySeqFocus false
set_option linter.unusedSimpArgs false

namespace Ama.GameData.Gnb

theorem get_combo_breakers_floor (e : Env) : get_combo_breakers e.floor = get_combo_breakers e := rfl

theorem auto_floor (e : Env) : auto e.floor = auto e := rfl

theorem keen_edge_floor (e : Env) :
    keen_edge e.floor = keen_edge e := by
  simp only [keen_edge, getPotency_floor]

theorem no_mercy_floor (e : Env) : no_mercy e.floor = no_mercy e := rfl

theorem brutal_shell_floor (e : Env) :
    brutal_shell e.floor = brutal_shell e := by
  simp only [brutal_shell, getPotency_floor, getPotencyNoCombo_floor]

theorem demon_slice_floor (e : Env) :
    demon_slice e.floor = demon_slice e := by
  simp only [demon_slice, getPotency_floor]

theorem lightning_shot_floor (e : Env) :
    lightning_shot e.floor = lightning_shot e := by
  simp only [lightning_shot, getPotency_floor]

theorem solid_barrel_floor (e : Env) :
    solid_barrel e.floor = solid_barrel e := by
  simp only [solid_barrel, getPotency_floor, getPotencyNoCombo_floor]

theorem burst_strike_floor (e : Env) :
    burst_strike e.floor = burst_strike e := by
  simp only [burst_strike, getPotency_floor]

theorem demon_slaughter_floor (e : Env) :
    demon_slaughter e.floor = demon_slaughter e := by
  simp only [demon_slaughter, getPotency_floor, getPotencyNoCombo_floor]

theorem sonic_break_floor (e : Env) :
    sonic_break e.floor = sonic_break e := by
  simp only [sonic_break, getPotency_floor]

theorem rough_divide_floor (e : Env) :
    rough_divide e.floor = rough_divide e := by
  simp only [rough_divide, floor_ge, getPotency_floor]

theorem gnashing_fang_floor (e : Env) :
    gnashing_fang e.floor = gnashing_fang e := by
  simp only [gnashing_fang, getPotency_floor]

theorem savage_claw_floor (e : Env) :
    savage_claw e.floor = savage_claw e := by
  simp only [savage_claw, getPotency_floor]

theorem wicked_talon_floor (e : Env) :
    wicked_talon e.floor = wicked_talon e := by
  simp only [wicked_talon, getPotency_floor]

theorem bow_shock_floor (e : Env) :
    bow_shock e.floor = bow_shock e := by
  simp only [bow_shock, getPotency_floor]

theorem jugular_rip_floor (e : Env) :
    jugular_rip e.floor = jugular_rip e := by
  simp only [jugular_rip, getPotency_floor]

theorem abdomen_tear_floor (e : Env) :
    abdomen_tear e.floor = abdomen_tear e := by
  simp only [abdomen_tear, getPotency_floor]

theorem eye_gouge_floor (e : Env) :
    eye_gouge e.floor = eye_gouge e := by
  simp only [eye_gouge, getPotency_floor]

theorem fated_circle_floor (e : Env) :
    fated_circle e.floor = fated_circle e := by
  simp only [fated_circle, getPotency_floor]

theorem blasting_zone_floor (e : Env) :
    blasting_zone e.floor = blasting_zone e := by
  simp only [blasting_zone, getPotency_floor]

theorem hypervelocity_floor (e : Env) :
    hypervelocity e.floor = hypervelocity e := by
  simp only [hypervelocity, getPotency_floor]

theorem double_down_floor (e : Env) :
    double_down e.floor = double_down e := by
  simp only [double_down, getPotency_floor]

theorem fated_brand_floor (e : Env) :
    fated_brand e.floor = fated_brand e := by
  simp only [fated_brand, getPotency_floor] <;> rfl

theorem reign_of_beasts_floor (e : Env) :
    reign_of_beasts e.floor = reign_of_beasts e := by
  simp only [reign_of_beasts, getPotency_floor] <;> rfl

theorem noble_blood_floor (e : Env) :
    noble_blood e.floor = noble_blood e := by
  simp only [noble_blood, getPotency_floor] <;> rfl

theorem lion_heart_floor (e : Env) :
    lion_heart e.floor = lion_heart e := by
  simp only [lion_heart, getPotency_floor] <;> rfl

theorem bloodfest_floor (e : Env) : bloodfest e.floor = bloodfest e := rfl

theorem rampart_floor (e : Env) : rampart e.floor = rampart e := rfl

theorem provoke_floor (e : Env) : provoke e.floor = provoke e := rfl

theorem reprisal_floor (e : Env) : reprisal e.floor = reprisal e := rfl

theorem arms_length_floor (e : Env) : arms_length e.floor = arms_length e := rfl

theorem shirk_floor (e : Env) : shirk e.floor = shirk e := rfl

theorem camouflage_floor (e : Env) : camouflage e.floor = camouflage e := rfl

theorem royal_guard_floor (e : Env) : royal_guard e.floor = royal_guard e := rfl

theorem release_royal_guard_floor (e : Env) : release_royal_guard e.floor = release_royal_guard e := rfl

theorem nebula_floor (e : Env) :
    nebula e.floor = nebula e := by rfl

theorem great_nebula_floor (e : Env) :
    great_nebula e.floor = great_nebula e := by rfl

theorem aurora_floor (e : Env) : aurora e.floor = aurora e := rfl

theorem superbolide_floor (e : Env) : superbolide e.floor = superbolide e := rfl

theorem trajectory_floor (e : Env) :
    trajectory e.floor = trajectory e := by
  simp only [trajectory, floor_lt]

theorem heart_of_light_floor (e : Env) : heart_of_light e.floor = heart_of_light e := rfl

theorem heart_of_stone_floor (e : Env) : heart_of_stone e.floor = heart_of_stone e := rfl

theorem heart_of_corundrum_floor (e : Env) : heart_of_corundrum e.floor = heart_of_corundrum e := rfl

theorem job_floor (e : Env) :
    job e.floor = job e := by
  simp only [job, get_combo_breakers_floor, abdomen_tear_floor, arms_length_floor, aurora_floor,
    auto_floor, blasting_zone_floor, bloodfest_floor, bow_shock_floor, brutal_shell_floor,
    burst_strike_floor, camouflage_floor, demon_slaughter_floor, demon_slice_floor, double_down_floor,
    eye_gouge_floor, fated_brand_floor, fated_circle_floor, gnashing_fang_floor, great_nebula_floor,
    heart_of_corundrum_floor, heart_of_light_floor, heart_of_stone_floor, hypervelocity_floor,
    jugular_rip_floor, keen_edge_floor, lightning_shot_floor, lion_heart_floor, nebula_floor,
    no_mercy_floor, noble_blood_floor, provoke_floor, rampart_floor, reign_of_beasts_floor,
    release_royal_guard_floor, reprisal_floor, rough_divide_floor, royal_guard_floor,
    savage_claw_floor, shirk_floor, solid_barrel_floor, sonic_break_floor, superbolide_floor,
    trajectory_floor, wicked_talon_floor]

end Ama.GameData.Gnb
