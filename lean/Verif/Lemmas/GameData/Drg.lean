import Verif.Lemmas.GameData.Floor
import Verif.Model.GameData.Drg

/-!
# The data of DRG for a version between two listed ones

Generated by `tools/floor.py`: method by method, the data for a version is that for the latest listed
version that is not above it, under the conditions stated where the code compares with `<=`, `>`, `==` or `!=`.
-/

set_option linter.unnecessarySeqFocus false
set_option linter.unusedSimpArgs false

namespace Ama.GameData.Drg

theorem attr_drg_weapon_skills_floor (e : Env) : attr_drg_weapon_skills e.floor = attr_drg_weapon_skills e := rfl

theorem get_power_surge_follow_up_floor (e : Env) : get_power_surge_follow_up e.floor = get_power_surge_follow_up e := rfl

theorem auto_floor (e : Env) : auto e.floor = auto e := rfl

theorem true_thrust_floor (e : Env) :
    true_thrust e.floor = true_thrust e := by
  simp only [true_thrust, getPotency_floor]

theorem vorpal_thrust_floor (e : Env) :
    vorpal_thrust e.floor = vorpal_thrust e := by
  simp only [vorpal_thrust, getPotency_floor, getPotencyNoCombo_floor] <;> rfl

theorem piercing_talon_floor (e : Env) :
    piercing_talon e.floor = piercing_talon e := by
  simp only [piercing_talon, floor_ge, getSkillData_floor, getPotency_floor]

theorem disembowel_floor (e : Env) :
    disembowel e.floor = disembowel e := by
  simp only [disembowel, getPotency_floor, getPotencyNoCombo_floor, get_power_surge_follow_up_floor] <;> rfl

theorem lance_charge_floor (e : Env) :
    lance_charge e.floor = lance_charge e := by
  simp only [lance_charge, getSkillData_floor]

theorem doom_spike_floor (e : Env) :
    doom_spike e.floor = doom_spike e := by
  simp only [doom_spike, getPotency_floor]

theorem spineshatter_dive_floor (e : Env) :
    spineshatter_dive e.floor = spineshatter_dive e := by
  simp only [spineshatter_dive, floor_ge, getPotency_floor]

theorem dragonfire_dive_floor (e : Env) :
    dragonfire_dive e.floor = dragonfire_dive e := by
  simp only [dragonfire_dive, getPotency_floor]

theorem battle_litany_floor (e : Env) :
    battle_litany e.floor = battle_litany e := by
  simp only [battle_litany, getSkillData_floor]

theorem fang_and_claw_floor (e : Env) :
    fang_and_claw e.floor = fang_and_claw e := by
  simp only [fang_and_claw, floor_ge, getSkillData_floor, getPotency_floor, getPotencyNoCombo_floor,
    getPotencyNoPositional_floor, attr_drg_weapon_skills_floor]

theorem wheeling_thrust_floor (e : Env) :
    wheeling_thrust e.floor = wheeling_thrust e := by
  simp only [wheeling_thrust, floor_ge, getSkillData_floor, getPotency_floor, getPotencyNoCombo_floor,
    getPotencyNoPositional_floor, attr_drg_weapon_skills_floor]

theorem geirskogul_floor (e : Env) :
    geirskogul e.floor = geirskogul e := by
  simp only [geirskogul, floor_ge, getSkillData_floor, getPotency_floor]

theorem sonic_thrust_floor (e : Env) :
    sonic_thrust e.floor = sonic_thrust e := by
  simp only [sonic_thrust, getPotency_floor, getPotencyNoCombo_floor, get_power_surge_follow_up_floor]

theorem drakesbane_floor (e : Env) (h2 : e.pos ≠ 2) :
    drakesbane e.floor = drakesbane e := by
  simp only [drakesbane, getPotency_floor, floor_le (e := e) (p := .p655) h2]

theorem dragon_sight_floor (e : Env) :
    dragon_sight e.floor = dragon_sight e := by
  simp only [dragon_sight, floor_ge]

theorem left_eye_floor (e : Env) :
    left_eye e.floor = left_eye e := by
  simp only [left_eye, floor_ge]

theorem mirage_dive_floor (e : Env) :
    mirage_dive e.floor = mirage_dive e := by
  simp only [mirage_dive, getPotency_floor]

theorem nastrond_floor (e : Env) :
    nastrond e.floor = nastrond e := by
  simp only [nastrond, getPotency_floor]

theorem coerthan_torment_floor (e : Env) :
    coerthan_torment e.floor = coerthan_torment e := by
  simp only [coerthan_torment, getPotency_floor, getPotencyNoCombo_floor]

theorem high_jump_floor (e : Env) :
    high_jump e.floor = high_jump e := by
  simp only [high_jump, getPotency_floor]

theorem raiden_thrust_floor (e : Env) :
    raiden_thrust e.floor = raiden_thrust e := by
  simp only [raiden_thrust, getPotency_floor]

theorem stardiver_floor (e : Env) :
    stardiver e.floor = stardiver e := by
  simp only [stardiver, getPotency_floor]

theorem draconian_fury_floor (e : Env) :
    draconian_fury e.floor = draconian_fury e := by
  simp only [draconian_fury, getPotency_floor]

theorem heavens_thrust_floor (e : Env) :
    heavens_thrust e.floor = heavens_thrust e := by
  simp only [heavens_thrust, getSkillData_floor, getPotency_floor, getPotencyNoCombo_floor]

theorem chaotic_spring_floor (e : Env) :
    chaotic_spring e.floor = chaotic_spring e := by
  simp only [chaotic_spring, getSkillData_floor, getPotency_floor, getPotencyNoCombo_floor,
    getPotencyNoPositional_floor]

theorem wyrmwind_thrust_floor (e : Env) :
    wyrmwind_thrust e.floor = wyrmwind_thrust e := by
  simp only [wyrmwind_thrust, getPotency_floor]

theorem rise_of_the_dragon_floor (e : Env) :
    rise_of_the_dragon e.floor = rise_of_the_dragon e := by
  simp only [rise_of_the_dragon, getPotency_floor] <;> rfl

theorem lance_barrage_floor (e : Env) :
    lance_barrage e.floor = lance_barrage e := by
  simp only [lance_barrage, getPotency_floor, getPotencyNoCombo_floor] <;> rfl

theorem spiral_blow_floor (e : Env) :
    spiral_blow e.floor = spiral_blow e := by
  simp only [spiral_blow, get_power_surge_follow_up_floor] <;> rfl

theorem starcross_floor (e : Env) :
    starcross e.floor = starcross e := by rfl

theorem life_surge_floor (e : Env) :
    life_surge e.floor = life_surge e := by
  simp only [life_surge, attr_drg_weapon_skills_floor]

theorem true_north_floor (e : Env) : true_north e.floor = true_north e := rfl

theorem winged_glide_floor (e : Env) : winged_glide e.floor = winged_glide e := rfl

theorem elusive_jump_floor (e : Env) :
    elusive_jump e.floor = elusive_jump e := by
  simp only [elusive_jump, floor_ge]

theorem job_floor (e : Env) (h2 : e.pos ≠ 2) :
    job e.floor = job e := by
  simp only [job, attr_drg_weapon_skills_floor, auto_floor, battle_litany_floor, chaotic_spring_floor,
    coerthan_torment_floor, disembowel_floor, doom_spike_floor, draconian_fury_floor,
    dragon_sight_floor, dragonfire_dive_floor, drakesbane_floor e h2, elusive_jump_floor,
    fang_and_claw_floor, geirskogul_floor, heavens_thrust_floor, high_jump_floor, lance_barrage_floor,
    lance_charge_floor, left_eye_floor, life_surge_floor, mirage_dive_floor, nastrond_floor,
    piercing_talon_floor, raiden_thrust_floor, rise_of_the_dragon_floor, sonic_thrust_floor,
    spineshatter_dive_floor, spiral_blow_floor, starcross_floor, stardiver_floor, true_north_floor,
    true_thrust_floor, vorpal_thrust_floor, wheeling_thrust_floor, winged_glide_floor,
    wyrmwind_thrust_floor]

end Ama.GameData.Drg
