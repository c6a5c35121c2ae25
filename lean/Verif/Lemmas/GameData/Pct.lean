import Verif.Lemmas.GameData.Floor
import Verif.Model.GameData.Pct

/-!
# The data of PCT for a version between two listed ones

Generated by `tools/floor.py`: method by method, the data for a version is that for the latest listed
version that is not above it.
-/

set_option linter.unnecessarySeqFocus false
set_option linter.unusedSimpArgs false

namespace Ama.GameData.Pct

theorem attr_pct_caster_tax_ms_floor (e : Env) : attr_pct_caster_tax_ms e.floor = attr_pct_caster_tax_ms e := rfl

theorem attr_base_animation_lock_floor (e : Env) : attr_base_animation_lock e.floor = attr_base_animation_lock e := rfl

theorem attr_pct_instant_timing_spec_floor (e : Env) :
    attr_pct_instant_timing_spec e.floor = attr_pct_instant_timing_spec e := by
  simp only [attr_pct_instant_timing_spec, attr_base_animation_lock_floor]

theorem attr_aetherhue_skills_floor (e : Env) : attr_aetherhue_skills e.floor = attr_aetherhue_skills e := rfl

theorem hyperphantasia_floor (e : Env) :
    hyperphantasia e.floor = hyperphantasia e := by
  simp only [hyperphantasia, attr_aetherhue_skills_floor]

theorem get_rainbow_bright_follow_up_floor (e : Env) : get_rainbow_bright_follow_up e.floor = get_rainbow_bright_follow_up e := rfl

theorem auto_floor (e : Env) : auto e.floor = auto e := rfl

theorem fire_in_red_floor (e : Env) :
    fire_in_red e.floor = fire_in_red e := by
  simp only [fire_in_red, getPotency_floor, attr_pct_caster_tax_ms_floor,
    get_rainbow_bright_follow_up_floor]

theorem aero_in_freen_floor (e : Env) :
    aero_in_freen e.floor = aero_in_freen e := by
  simp only [aero_in_freen, getPotency_floor, attr_pct_caster_tax_ms_floor,
    get_rainbow_bright_follow_up_floor]

theorem water_in_blue_floor (e : Env) :
    water_in_blue e.floor = water_in_blue e := by
  simp only [water_in_blue, getPotency_floor, attr_pct_caster_tax_ms_floor,
    get_rainbow_bright_follow_up_floor]

theorem fire_ii_in_red_floor (e : Env) :
    fire_ii_in_red e.floor = fire_ii_in_red e := by
  simp only [fire_ii_in_red, getPotency_floor, attr_pct_caster_tax_ms_floor,
    get_rainbow_bright_follow_up_floor]

theorem mog_of_the_ages_floor (e : Env) :
    mog_of_the_ages e.floor = mog_of_the_ages e := by
  simp only [mog_of_the_ages, getPotency_floor, attr_base_animation_lock_floor]

theorem pom_muse_floor (e : Env) :
    pom_muse e.floor = pom_muse e := by
  simp only [pom_muse, getPotency_floor, attr_base_animation_lock_floor]

theorem winged_muse_floor (e : Env) :
    winged_muse e.floor = winged_muse e := by
  simp only [winged_muse, getPotency_floor, attr_base_animation_lock_floor]

theorem aero_ii_in_green_floor (e : Env) :
    aero_ii_in_green e.floor = aero_ii_in_green e := by
  simp only [aero_ii_in_green, getPotency_floor, attr_pct_caster_tax_ms_floor,
    get_rainbow_bright_follow_up_floor]

theorem water_ii_in_blue_floor (e : Env) :
    water_ii_in_blue e.floor = water_ii_in_blue e := by
  simp only [water_ii_in_blue, getPotency_floor, attr_pct_caster_tax_ms_floor,
    get_rainbow_bright_follow_up_floor]

theorem hammer_stamp_floor (e : Env) :
    hammer_stamp e.floor = hammer_stamp e := by
  simp only [hammer_stamp, getPotency_floor, attr_base_animation_lock_floor]

theorem blizzard_in_cyan_floor (e : Env) :
    blizzard_in_cyan e.floor = blizzard_in_cyan e := by
  simp only [blizzard_in_cyan, getPotency_floor, attr_pct_caster_tax_ms_floor,
    get_rainbow_bright_follow_up_floor]

theorem blizzard_ii_in_cyan_floor (e : Env) :
    blizzard_ii_in_cyan e.floor = blizzard_ii_in_cyan e := by
  simp only [blizzard_ii_in_cyan, getPotency_floor, attr_pct_caster_tax_ms_floor,
    get_rainbow_bright_follow_up_floor]

theorem stone_in_yellow_floor (e : Env) :
    stone_in_yellow e.floor = stone_in_yellow e := by
  simp only [stone_in_yellow, getPotency_floor, attr_pct_caster_tax_ms_floor,
    get_rainbow_bright_follow_up_floor]

theorem thunder_in_magenta_floor (e : Env) :
    thunder_in_magenta e.floor = thunder_in_magenta e := by
  simp only [thunder_in_magenta, getPotency_floor, attr_pct_caster_tax_ms_floor,
    get_rainbow_bright_follow_up_floor]

theorem stone_ii_in_yellow_floor (e : Env) :
    stone_ii_in_yellow e.floor = stone_ii_in_yellow e := by
  simp only [stone_ii_in_yellow, getPotency_floor, attr_pct_caster_tax_ms_floor,
    get_rainbow_bright_follow_up_floor]

theorem thunder_ii_in_magenta_floor (e : Env) :
    thunder_ii_in_magenta e.floor = thunder_ii_in_magenta e := by
  simp only [thunder_ii_in_magenta, getPotency_floor, attr_pct_caster_tax_ms_floor,
    get_rainbow_bright_follow_up_floor]

theorem starry_muse_floor (e : Env) :
    starry_muse e.floor = starry_muse e := by
  simp only [starry_muse, attr_aetherhue_skills_floor, attr_base_animation_lock_floor]

theorem holy_in_white_floor (e : Env) :
    holy_in_white e.floor = holy_in_white e := by
  simp only [holy_in_white, getPotency_floor, attr_base_animation_lock_floor,
    get_rainbow_bright_follow_up_floor]

theorem hammer_brush_floor (e : Env) :
    hammer_brush e.floor = hammer_brush e := by
  simp only [hammer_brush, getPotency_floor, attr_base_animation_lock_floor]

theorem polishing_hammer_floor (e : Env) :
    polishing_hammer e.floor = polishing_hammer e := by
  simp only [polishing_hammer, getPotency_floor, attr_base_animation_lock_floor]

theorem comet_in_black_floor (e : Env) :
    comet_in_black e.floor = comet_in_black e := by
  simp only [comet_in_black, getPotency_floor, attr_base_animation_lock_floor,
    get_rainbow_bright_follow_up_floor]

theorem rainbow_drip_floor (e : Env) :
    rainbow_drip e.floor = rainbow_drip e := by
  simp only [rainbow_drip, getPotency_floor, attr_pct_caster_tax_ms_floor,
    attr_base_animation_lock_floor] <;> rfl

theorem clawed_muse_floor (e : Env) :
    clawed_muse e.floor = clawed_muse e := by
  simp only [clawed_muse, getPotency_floor, attr_base_animation_lock_floor] <;> rfl

theorem fanged_muse_floor (e : Env) :
    fanged_muse e.floor = fanged_muse e := by
  simp only [fanged_muse, getPotency_floor, attr_base_animation_lock_floor] <;> rfl

theorem retribution_of_the_madeen_floor (e : Env) :
    retribution_of_the_madeen e.floor = retribution_of_the_madeen e := by
  simp only [retribution_of_the_madeen, getPotency_floor, attr_base_animation_lock_floor] <;> rfl

theorem star_prism_floor (e : Env) :
    star_prism e.floor = star_prism e := by
  simp only [star_prism, getPotency_floor, attr_base_animation_lock_floor,
    get_rainbow_bright_follow_up_floor] <;> rfl

theorem swiftcast_floor (e : Env) :
    swiftcast e.floor = swiftcast e := by
  simp only [swiftcast, attr_pct_instant_timing_spec_floor]

theorem tempera_coat_floor (e : Env) :
    tempera_coat e.floor = tempera_coat e := by
  simp only [tempera_coat, attr_base_animation_lock_floor]

theorem smudge_floor (e : Env) :
    smudge e.floor = smudge e := by
  simp only [smudge, attr_base_animation_lock_floor]

theorem creature_motif_floor (e : Env) :
    creature_motif e.floor = creature_motif e := by
  simp only [creature_motif, attr_pct_caster_tax_ms_floor]

theorem living_muse_floor (e : Env) :
    living_muse e.floor = living_muse e := by
  simp only [living_muse, attr_base_animation_lock_floor]

theorem pom_motif_floor (e : Env) :
    pom_motif e.floor = pom_motif e := by
  simp only [pom_motif, attr_pct_caster_tax_ms_floor]

theorem wing_motif_floor (e : Env) :
    wing_motif e.floor = wing_motif e := by
  simp only [wing_motif, attr_pct_caster_tax_ms_floor]

theorem weapon_motif_floor (e : Env) :
    weapon_motif e.floor = weapon_motif e := by
  simp only [weapon_motif, attr_pct_caster_tax_ms_floor]

theorem steel_muse_floor (e : Env) :
    steel_muse e.floor = steel_muse e := by
  simp only [steel_muse, attr_base_animation_lock_floor]

theorem hammer_motif_floor (e : Env) :
    hammer_motif e.floor = hammer_motif e := by
  simp only [hammer_motif, attr_pct_caster_tax_ms_floor]

theorem striking_muse_floor (e : Env) :
    striking_muse e.floor = striking_muse e := by
  simp only [striking_muse, attr_base_animation_lock_floor]

theorem subtractive_palette_floor (e : Env) :
    subtractive_palette e.floor = subtractive_palette e := by
  simp only [subtractive_palette, attr_base_animation_lock_floor]

theorem landscape_motif_floor (e : Env) :
    landscape_motif e.floor = landscape_motif e := by
  simp only [landscape_motif, attr_pct_caster_tax_ms_floor]

theorem scenic_muse_floor (e : Env) :
    scenic_muse e.floor = scenic_muse e := by
  simp only [scenic_muse, attr_base_animation_lock_floor]

theorem starry_sky_motif_floor (e : Env) :
    starry_sky_motif e.floor = starry_sky_motif e := by
  simp only [starry_sky_motif, attr_pct_caster_tax_ms_floor]

theorem tempera_grassa_floor (e : Env) :
    tempera_grassa e.floor = tempera_grassa e := by
  simp only [tempera_grassa, attr_base_animation_lock_floor]

theorem claw_motif_floor (e : Env) :
    claw_motif e.floor = claw_motif e := by
  simp only [claw_motif, attr_pct_caster_tax_ms_floor] <;> rfl

theorem maw_motif_floor (e : Env) :
    maw_motif e.floor = maw_motif e := by
  simp only [maw_motif, attr_pct_caster_tax_ms_floor] <;> rfl

theorem job_floor (e : Env) :
    job e.floor = job e := by
  simp only [job, attr_pct_caster_tax_ms_floor, attr_base_animation_lock_floor,
    attr_pct_instant_timing_spec_floor, attr_aetherhue_skills_floor, aero_ii_in_green_floor,
    aero_in_freen_floor, auto_floor, blizzard_ii_in_cyan_floor, blizzard_in_cyan_floor,
    claw_motif_floor, clawed_muse_floor, comet_in_black_floor, creature_motif_floor, fanged_muse_floor,
    fire_ii_in_red_floor, fire_in_red_floor, hammer_brush_floor, hammer_motif_floor,
    hammer_stamp_floor, holy_in_white_floor, landscape_motif_floor, living_muse_floor, maw_motif_floor,
    mog_of_the_ages_floor, polishing_hammer_floor, pom_motif_floor, pom_muse_floor, rainbow_drip_floor,
    retribution_of_the_madeen_floor, scenic_muse_floor, smudge_floor, star_prism_floor,
    starry_muse_floor, starry_sky_motif_floor, steel_muse_floor, stone_ii_in_yellow_floor,
    stone_in_yellow_floor, striking_muse_floor, subtractive_palette_floor, swiftcast_floor,
    tempera_coat_floor, tempera_grassa_floor, thunder_ii_in_magenta_floor, thunder_in_magenta_floor,
    water_ii_in_blue_floor, water_in_blue_floor, weapon_motif_floor, wing_motif_floor,
    winged_muse_floor, hyperphantasia_floor]

end Ama.GameData.Pct
