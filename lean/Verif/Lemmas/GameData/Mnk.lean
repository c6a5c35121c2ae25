import Verif.Lemmas.GameData.Floor
import Verif.Model.GameData.Mnk

/-!
# The data of MNK for a version between two listed ones

Generated by `tools/floor.py`: method by method, the data for a version is that for the latest listed
version that is not above it, under the conditions stated where the code compares with `<=`, `>`, `==` or `!=`.
-/

set_option linter.unnecessarySeqFocus false
set_option linter.unusedSimpArgs false

namespace Ama.GameData.Mnk

theorem get_disciplined_fist_follow_up_floor (e : Env) :
    get_disciplined_fist_follow_up e.floor = get_disciplined_fist_follow_up e := by
  simp only [get_disciplined_fist_follow_up, floor_ge]

theorem get_leaden_fist_follow_up_floor (e : Env) :
    get_leaden_fist_follow_up e.floor = get_leaden_fist_follow_up e := by
  simp only [get_leaden_fist_follow_up, floor_ge]

theorem auto_floor (e : Env) : auto e.floor = auto e := rfl

theorem twin_snakes_floor (e : Env) :
    twin_snakes e.floor = twin_snakes e := by
  simp only [twin_snakes, floor_ge, getSkillData_floor, getPotency_floor,
    get_disciplined_fist_follow_up_floor]

theorem get_opo_opo_form_follow_up_floor (e : Env) :
    get_opo_opo_form_follow_up e.floor = get_opo_opo_form_follow_up e := by
  simp only [get_opo_opo_form_follow_up, getSkillData_floor]

theorem demolish_floor (e : Env) :
    demolish e.floor = demolish e := by
  simp only [demolish, floor_ge, getSkillData_floor, getPotency_floor, getPotencyNoPositional_floor,
    get_opo_opo_form_follow_up_floor]

theorem dragon_kick_floor (e : Env) (h2 : e.pos ≠ 2) (h4 : e.pos ≠ 4) :
    dragon_kick e.floor = dragon_kick e := by
  simp only [dragon_kick, floor_ge, getSkillData_floor, getPotency_floor,
    floor_eq (e := e) (p := .p655) h2, floor_eq (e := e) (p := .p70) h4,
    get_leaden_fist_follow_up_floor]

theorem formless_fist_floor (e : Env) :
    formless_fist e.floor = formless_fist e := by
  simp only [formless_fist, getSkillData_floor]

theorem get_formless_fist_follow_up_floor (e : Env) :
    get_formless_fist_follow_up e.floor = get_formless_fist_follow_up e := by
  simp only [get_formless_fist_follow_up, getSkillData_floor]

theorem bootshine_floor (e : Env) (h2 : e.pos ≠ 2) :
    bootshine e.floor = bootshine e := by
  simp only [bootshine, getSkillData_floor, getPotency_floor, floor_eq (e := e) (p := .p655) h2] <;> rfl

theorem true_strike_floor (e : Env) :
    true_strike e.floor = true_strike e := by
  simp only [true_strike, floor_ge, getSkillData_floor, getPotency_floor] <;> rfl

theorem snap_punch_floor (e : Env) :
    snap_punch e.floor = snap_punch e := by
  simp only [snap_punch, floor_ge, getSkillData_floor, getPotency_floor, getPotencyNoPositional_floor,
    get_opo_opo_form_follow_up_floor] <;> rfl

theorem rockbreaker_floor (e : Env) :
    rockbreaker e.floor = rockbreaker e := by
  simp only [rockbreaker, getPotency_floor, get_opo_opo_form_follow_up_floor]

theorem four_point_fury_floor (e : Env) :
    four_point_fury e.floor = four_point_fury e := by
  simp only [four_point_fury, floor_ge, getPotency_floor, get_disciplined_fist_follow_up_floor]

theorem the_forbidden_chakra_floor (e : Env) :
    the_forbidden_chakra e.floor = the_forbidden_chakra e := by
  simp only [the_forbidden_chakra, getPotency_floor]

theorem elixir_field_floor (e : Env) :
    elixir_field e.floor = elixir_field e := by
  simp only [elixir_field, getPotency_floor, get_formless_fist_follow_up_floor]

theorem celestial_revolution_floor (e : Env) :
    celestial_revolution e.floor = celestial_revolution e := by
  simp only [celestial_revolution, getPotency_floor, get_formless_fist_follow_up_floor]

theorem riddle_of_fire_floor (e : Env) :
    riddle_of_fire e.floor = riddle_of_fire e := by
  simp only [riddle_of_fire, getSkillData_floor]

theorem brotherhood_floor (e : Env) :
    brotherhood e.floor = brotherhood e := by
  simp only [brotherhood, getSkillData_floor]

theorem riddle_of_wind_floor (e : Env) :
    riddle_of_wind e.floor = riddle_of_wind e := by
  simp only [riddle_of_wind, getSkillData_floor]

theorem enlightenment_floor (e : Env) :
    enlightenment e.floor = enlightenment e := by
  simp only [enlightenment, getPotency_floor]

theorem six_sided_star_floor (e : Env) :
    six_sided_star e.floor = six_sided_star e := by
  simp only [six_sided_star, getSkillData_floor]

theorem shadow_of_the_destroyer_floor (e : Env) :
    shadow_of_the_destroyer e.floor = shadow_of_the_destroyer e := by
  simp only [shadow_of_the_destroyer, getPotency_floor]

theorem rising_phoenix_floor (e : Env) :
    rising_phoenix e.floor = rising_phoenix e := by
  simp only [rising_phoenix, getPotency_floor, get_formless_fist_follow_up_floor]

theorem phantom_rush_floor (e : Env) :
    phantom_rush e.floor = phantom_rush e := by
  simp only [phantom_rush, getPotency_floor, get_formless_fist_follow_up_floor]

theorem leaping_opo_floor (e : Env) :
    leaping_opo e.floor = leaping_opo e := by
  simp only [leaping_opo, getSkillData_floor, getPotency_floor] <;> rfl

theorem rising_raptor_floor (e : Env) :
    rising_raptor e.floor = rising_raptor e := by
  simp only [rising_raptor, getSkillData_floor, getPotency_floor] <;> rfl

theorem pouncing_coeurl_floor (e : Env) :
    pouncing_coeurl e.floor = pouncing_coeurl e := by
  simp only [pouncing_coeurl, getSkillData_floor, getPotency_floor, get_opo_opo_form_follow_up_floor] <;> rfl

theorem elixir_burst_floor (e : Env) :
    elixir_burst e.floor = elixir_burst e := by
  simp only [elixir_burst, getPotency_floor, get_formless_fist_follow_up_floor] <;> rfl

theorem winds_reply_floor (e : Env) :
    winds_reply e.floor = winds_reply e := by
  simp only [winds_reply, getPotency_floor] <;> rfl

theorem fires_reply_floor (e : Env) :
    fires_reply e.floor = fires_reply e := by
  simp only [fires_reply, getPotency_floor, get_formless_fist_follow_up_floor] <;> rfl

theorem perfect_balance_floor (e : Env) :
    perfect_balance e.floor = perfect_balance e := by
  simp only [perfect_balance, get_opo_opo_form_follow_up_floor]

theorem form_shift_floor (e : Env) :
    form_shift e.floor = form_shift e := by
  simp only [form_shift, get_formless_fist_follow_up_floor]

theorem steeled_meditation_floor (e : Env) : steeled_meditation e.floor = steeled_meditation e := rfl

theorem inspirited_meditation_floor (e : Env) : inspirited_meditation e.floor = inspirited_meditation e := rfl

theorem forbidden_meditation_floor (e : Env) : forbidden_meditation e.floor = forbidden_meditation e := rfl

theorem enlightened_meditation_floor (e : Env) : enlightened_meditation e.floor = enlightened_meditation e := rfl

theorem true_north_floor (e : Env) : true_north e.floor = true_north e := rfl

theorem meditation_floor (e : Env) : meditation e.floor = meditation e := rfl

theorem thunderclap_floor (e : Env) : thunderclap e.floor = thunderclap e := rfl

theorem job_floor (e : Env) (h2 : e.pos ≠ 2) (h4 : e.pos ≠ 4) :
    job e.floor = job e := by
  simp only [job, auto_floor, bootshine_floor e h2, brotherhood_floor, celestial_revolution_floor,
    demolish_floor, dragon_kick_floor e h2 h4, elixir_burst_floor, elixir_field_floor,
    enlightened_meditation_floor, enlightenment_floor, fires_reply_floor, forbidden_meditation_floor,
    form_shift_floor, formless_fist_floor, four_point_fury_floor, inspirited_meditation_floor,
    leaping_opo_floor, meditation_floor, perfect_balance_floor, phantom_rush_floor,
    pouncing_coeurl_floor, riddle_of_fire_floor, riddle_of_wind_floor, rising_phoenix_floor,
    rising_raptor_floor, rockbreaker_floor, shadow_of_the_destroyer_floor, six_sided_star_floor,
    snap_punch_floor, steeled_meditation_floor, the_forbidden_chakra_floor, thunderclap_floor,
    true_north_floor, true_strike_floor, twin_snakes_floor, winds_reply_floor]

end Ama.GameData.Mnk
