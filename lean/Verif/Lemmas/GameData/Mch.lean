import Verif.Lemmas.GameData.Floor
import Verif.Model.GameData.Mch

/-!
# The data of MCH for a version between two listed ones

Generated by `tools/floor.py`: method by method, the data for a version is that for the latest listed
version that is not above it.
-/

set_option linter.unnecessarySeqFocus false
set_option linter.unusedSimpArgs false

namespace Ama.GameData.Mch

theorem battery_floor (e : Env) : battery e.floor = battery e := rfl

theorem gcd_floor (e : Env) : gcd e.floor = gcd e := rfl

theorem get_gcd_job_resouce_increase_floor (e : Env) : get_gcd_job_resouce_increase e.floor = get_gcd_job_resouce_increase e := rfl

theorem get_arm_punch_follow_ups_floor (e : Env) :
    get_arm_punch_follow_ups e.floor = get_arm_punch_follow_ups e := by
  simp only [get_arm_punch_follow_ups, getSkillData_floor]

theorem get_roller_dash_follow_up_floor (e : Env) :
    get_roller_dash_follow_up e.floor = get_roller_dash_follow_up e := by
  simp only [get_roller_dash_follow_up, getSkillData_floor]

theorem get_pile_bunker_follow_up_floor (e : Env) :
    get_pile_bunker_follow_up e.floor = get_pile_bunker_follow_up e := by
  simp only [get_pile_bunker_follow_up, getSkillData_floor]

theorem get_crowned_collider_follow_up_floor (e : Env) :
    get_crowned_collider_follow_up e.floor = get_crowned_collider_follow_up e := by
  simp only [get_crowned_collider_follow_up, getSkillData_floor]

theorem get_flamethrower_follow_ups_floor (e : Env) :
    get_flamethrower_follow_ups e.floor = get_flamethrower_follow_ups e := by
  simp only [get_flamethrower_follow_ups, getPotency_floor]

theorem get_wildfire_damage_spec_floor (e : Env) : get_wildfire_damage_spec e.floor = get_wildfire_damage_spec e := rfl

theorem auto_floor (e : Env) : auto e.floor = auto e := rfl

theorem gauss_round_floor (e : Env) :
    gauss_round e.floor = gauss_round e := by
  simp only [gauss_round, getPotency_floor]

theorem heat_blast_floor (e : Env) :
    heat_blast e.floor = heat_blast e := by
  simp only [heat_blast, getPotency_floor, get_gcd_job_resouce_increase_floor]

theorem wildfire_floor (e : Env) :
    wildfire e.floor = wildfire e := by
  simp only [wildfire, get_wildfire_damage_spec_floor]

theorem detonator_floor (e : Env) :
    detonator e.floor = detonator e := by
  simp only [detonator, get_wildfire_damage_spec_floor]

theorem ricochet_floor (e : Env) :
    ricochet e.floor = ricochet e := by
  simp only [ricochet, getPotency_floor]

theorem auto_crossbow_floor (e : Env) :
    auto_crossbow e.floor = auto_crossbow e := by
  simp only [auto_crossbow, getPotency_floor, get_gcd_job_resouce_increase_floor]

theorem heated_split_shot_floor (e : Env) :
    heated_split_shot e.floor = heated_split_shot e := by
  simp only [heated_split_shot, getPotency_floor, get_gcd_job_resouce_increase_floor]

theorem drill_floor (e : Env) :
    drill e.floor = drill e := by
  simp only [drill, getPotency_floor, get_gcd_job_resouce_increase_floor]

theorem heated_slug_shot_floor (e : Env) :
    heated_slug_shot e.floor = heated_slug_shot e := by
  simp only [heated_slug_shot, getPotency_floor, getPotencyNoCombo_floor,
    get_gcd_job_resouce_increase_floor]

theorem heated_clean_shot_floor (e : Env) :
    heated_clean_shot e.floor = heated_clean_shot e := by
  simp only [heated_clean_shot, getPotency_floor, getPotencyNoCombo_floor,
    get_gcd_job_resouce_increase_floor]

theorem blazing_shot_floor (e : Env) :
    blazing_shot e.floor = blazing_shot e := by
  simp only [blazing_shot, floor_lt, getPotency_floor, get_gcd_job_resouce_increase_floor]

theorem bioblaster_floor (e : Env) :
    bioblaster e.floor = bioblaster e := by
  simp only [bioblaster, getPotency_floor, get_gcd_job_resouce_increase_floor]

theorem flamethrower_floor (e : Env) :
    flamethrower e.floor = flamethrower e := by
  simp only [flamethrower, get_flamethrower_follow_ups_floor]

theorem air_anchor_floor (e : Env) :
    air_anchor e.floor = air_anchor e := by
  simp only [air_anchor, getPotency_floor, get_gcd_job_resouce_increase_floor]

theorem automaton_queen_floor (e : Env) :
    automaton_queen e.floor = automaton_queen e := by
  simp only [automaton_queen, get_arm_punch_follow_ups_floor, get_roller_dash_follow_up_floor,
    get_pile_bunker_follow_up_floor, get_crowned_collider_follow_up_floor]

theorem scattergun_floor (e : Env) :
    scattergun e.floor = scattergun e := by
  simp only [scattergun, getPotency_floor, get_gcd_job_resouce_increase_floor]

theorem chain_saw_floor (e : Env) :
    chain_saw e.floor = chain_saw e := by
  simp only [chain_saw, getPotency_floor, get_gcd_job_resouce_increase_floor]

theorem reassemble_floor (e : Env) : reassemble e.floor = reassemble e := rfl

theorem hypercharge_floor (e : Env) : hypercharge e.floor = hypercharge e := rfl

theorem checkmate_floor (e : Env) :
    checkmate e.floor = checkmate e := by
  simp only [checkmate, floor_lt, getPotency_floor] <;> rfl

theorem double_check_floor (e : Env) :
    double_check e.floor = double_check e := by
  simp only [double_check, floor_lt, getPotency_floor] <;> rfl

theorem excavator_floor (e : Env) :
    excavator e.floor = excavator e := by
  simp only [excavator, floor_lt, getPotency_floor, get_gcd_job_resouce_increase_floor] <;> rfl

theorem full_metal_field_floor (e : Env) :
    full_metal_field e.floor = full_metal_field e := by
  simp only [full_metal_field, floor_lt, getPotency_floor, get_gcd_job_resouce_increase_floor] <;> rfl

theorem tactician_floor (e : Env) : tactician e.floor = tactician e := rfl

theorem dismantle_floor (e : Env) : dismantle e.floor = dismantle e := rfl

theorem barrel_stabilizer_floor (e : Env) : barrel_stabilizer e.floor = barrel_stabilizer e := rfl

theorem job_floor (e : Env) :
    job e.floor = job e := by
  simp only [job, air_anchor_floor, auto_floor, auto_crossbow_floor, automaton_queen_floor,
    barrel_stabilizer_floor, bioblaster_floor, blazing_shot_floor, chain_saw_floor, checkmate_floor,
    detonator_floor, dismantle_floor, double_check_floor, drill_floor, excavator_floor,
    flamethrower_floor, full_metal_field_floor, gauss_round_floor, heat_blast_floor,
    heated_clean_shot_floor, heated_slug_shot_floor, heated_split_shot_floor, hypercharge_floor,
    reassemble_floor, ricochet_floor, scattergun_floor, tactician_floor, wildfire_floor, battery_floor,
    gcd_floor]

end Ama.GameData.Mch
