import Verif.Lemmas.GameData.Floor
import Verif.Model.GameData.Ast

/-!
# The data of AST for a version between two listed ones

Generated by `tools/floor.py`: method by method, the data for a version is that for the latest listed
version that is not above it, under the conditions stated where the code compares with `<=`, `>`, `==` or `!=`.
-/

set_option linter.unnecessarySeqFocus false
set_option linter.unusedSimpArgs false

namespace Ama.GameData.Ast

theorem auto_floor (e : Env) : auto e.floor = auto e := rfl

theorem divination_floor (e : Env) :
    divination e.floor = divination e := by
  simp only [divination, getSkillData_floor]

theorem fall_malefic_floor (e : Env) :
    fall_malefic e.floor = fall_malefic e := by
  simp only [fall_malefic, getPotency_floor]

theorem combust_floor (e : Env) :
    combust e.floor = combust e := by
  simp only [combust, getPotency_floor]

theorem astrodyne_floor (e : Env) :
    astrodyne e.floor = astrodyne e := by
  simp only [astrodyne, floor_ge]

theorem lightspeed_floor (e : Env) : lightspeed e.floor = lightspeed e := rfl

theorem gravity_ii_floor (e : Env) :
    gravity_ii e.floor = gravity_ii e := by
  simp only [gravity_ii, getPotency_floor]

theorem macrocosmos_floor (e : Env) :
    macrocosmos e.floor = macrocosmos e := by
  simp only [macrocosmos, getPotency_floor]

theorem lord_of_crowns_floor (e : Env) :
    lord_of_crowns e.floor = lord_of_crowns e := by
  simp only [lord_of_crowns, getPotency_floor]

theorem card_floor (e : Env) : card e.floor = card e := rfl

theorem swiftcast_floor (e : Env) : swiftcast e.floor = swiftcast e := rfl

theorem get_giant_dominance_followup_floor (e : Env) : get_giant_dominance_followup e.floor = get_giant_dominance_followup e := rfl

theorem get_stellar_detonation_follow_up_floor (e : Env) :
    get_stellar_detonation_follow_up e.floor = get_stellar_detonation_follow_up e := by
  simp only [get_stellar_detonation_follow_up, getSkillData_floor]

theorem giant_dominance_floor (e : Env) :
    giant_dominance e.floor = giant_dominance e := by
  simp only [giant_dominance, getSkillData_floor]

theorem earthly_dominance_floor (e : Env) :
    earthly_dominance e.floor = earthly_dominance e := by
  simp only [earthly_dominance, get_giant_dominance_followup_floor,
    get_stellar_detonation_follow_up_floor]

theorem stellar_detonation_floor (e : Env) :
    stellar_detonation e.floor = stellar_detonation e := by
  simp only [stellar_detonation, getSkillData_floor]

theorem earthly_star_floor (e : Env) :
    earthly_star e.floor = earthly_star e := by
  simp only [earthly_star, get_giant_dominance_followup_floor, get_stellar_detonation_follow_up_floor]

theorem oracle_floor (e : Env) :
    oracle e.floor = oracle e := by
  simp only [oracle, getPotency_floor] <;> rfl

theorem helios_conjunction_floor (e : Env) :
    helios_conjunction e.floor = helios_conjunction e := by rfl

theorem draw_floor (e : Env) :
    draw e.floor = draw e := by
  simp only [draw, floor_ge]

theorem redraw_floor (e : Env) :
    redraw e.floor = redraw e := by
  simp only [redraw, floor_ge]

theorem play_floor (e : Env) :
    play e.floor = play e := by
  simp only [play, floor_ge]

theorem minor_arcana_floor (e : Env) : minor_arcana e.floor = minor_arcana e := rfl

theorem collective_unconscious_floor (e : Env) : collective_unconscious e.floor = collective_unconscious e := rfl

theorem astral_draw_floor (e : Env) :
    astral_draw e.floor = astral_draw e := by
  simp only [astral_draw, floor_lt]

theorem umbral_draw_floor (e : Env) :
    umbral_draw e.floor = umbral_draw e := by
  simp only [umbral_draw, floor_lt]

theorem get_card_skill_655_floor (e : Env) (name : PyVal) (sign : PyVal) : get_card_skill_655 e.floor name sign = get_card_skill_655 e name sign := rfl

theorem get_card_skills_655_floor (e : Env) (h2 : e.pos ≠ 2) :
    get_card_skills_655 e.floor = get_card_skills_655 e := by
  simp only [get_card_skills_655, floor_ne (e := e) (p := .p655) h2, get_card_skill_655_floor]

theorem get_non_damaging_card_skill_floor (e : Env) (name : PyVal) : get_non_damaging_card_skill e.floor name = get_non_damaging_card_skill e name := rfl

theorem get_damaging_card_skill_floor (e : Env) (name : PyVal) : get_damaging_card_skill e.floor name = get_damaging_card_skill e name := rfl

theorem cards_floor (e : Env) :
    cards e.floor = cards e := by
  simp only [cards, floor_lt, get_non_damaging_card_skill_floor, get_damaging_card_skill_floor]

theorem asterisk_floor (e : Env) :
    asterisk e.floor = asterisk e := by
  simp only [asterisk, floor_ge]

theorem moon_floor (e : Env) :
    moon e.floor = moon e := by
  simp only [moon, floor_ge]

theorem circle_floor (e : Env) :
    circle e.floor = circle e := by
  simp only [circle, floor_ge]

theorem job_floor (e : Env) (h2 : e.pos ≠ 2) :
    job e.floor = job e := by
  simp only [job, astral_draw_floor, astrodyne_floor, auto_floor, card_floor, cards_floor,
    collective_unconscious_floor, combust_floor, divination_floor, draw_floor, earthly_dominance_floor,
    earthly_star_floor, fall_malefic_floor, get_card_skills_655_floor e h2, giant_dominance_floor,
    gravity_ii_floor, helios_conjunction_floor, lightspeed_floor, lord_of_crowns_floor,
    macrocosmos_floor, minor_arcana_floor, oracle_floor, play_floor, redraw_floor,
    stellar_detonation_floor, swiftcast_floor, umbral_draw_floor, asterisk_floor, circle_floor,
    moon_floor]

end Ama.GameData.Ast
