import Verif.Lemmas.GameData.Floor
import Verif.Model.GameData.Dnc

/-!
# The data of DNC for a version between two listed ones

Generated by `tools/floor.py`: method by method, the data for a version is that for the latest listed
version that is not above it.
-/

set_option linter.unnecessarySeqFocus false
set_option linter.unusedSimpArgs false

namespace Ama.GameData.Dnc

theorem get_standard_finish2_follow_up_floor (e : Env) : get_standard_finish2_follow_up e.floor = get_standard_finish2_follow_up e := rfl

theorem auto_floor (e : Env) : auto e.floor = auto e := rfl

theorem cascade_floor (e : Env) :
    cascade e.floor = cascade e := by
  simp only [cascade, getPotency_floor]

theorem fountain_floor (e : Env) :
    fountain e.floor = fountain e := by
  simp only [fountain, getPotency_floor, getPotencyNoCombo_floor]

theorem windmill_floor (e : Env) :
    windmill e.floor = windmill e := by
  simp only [windmill, getPotency_floor]

theorem standard_finish_floor (e : Env) :
    standard_finish e.floor = standard_finish e := by
  simp only [standard_finish, getSkillData_floor, get_standard_finish2_follow_up_floor]

theorem reverse_cascade_floor (e : Env) :
    reverse_cascade e.floor = reverse_cascade e := by
  simp only [reverse_cascade, getPotency_floor]

theorem bladeshower_floor (e : Env) :
    bladeshower e.floor = bladeshower e := by
  simp only [bladeshower, getPotency_floor, getPotencyNoCombo_floor]

theorem fan_dance_floor (e : Env) :
    fan_dance e.floor = fan_dance e := by
  simp only [fan_dance, getPotency_floor]

theorem rising_windmill_floor (e : Env) :
    rising_windmill e.floor = rising_windmill e := by
  simp only [rising_windmill, getPotency_floor]

theorem fountainfaill_floor (e : Env) :
    fountainfaill e.floor = fountainfaill e := by
  simp only [fountainfaill, getPotency_floor]

theorem bloodshower_floor (e : Env) :
    bloodshower e.floor = bloodshower e := by
  simp only [bloodshower, getPotency_floor]

theorem fan_dance_ii_floor (e : Env) :
    fan_dance_ii e.floor = fan_dance_ii e := by
  simp only [fan_dance_ii, getPotency_floor]

theorem devilment_floor (e : Env) :
    devilment e.floor = devilment e := by
  simp only [devilment, getSkillData_floor]

theorem fan_dance_iii_floor (e : Env) :
    fan_dance_iii e.floor = fan_dance_iii e := by
  simp only [fan_dance_iii, getPotency_floor]

theorem technical_finish_floor (e : Env) :
    technical_finish e.floor = technical_finish e := by
  simp only [technical_finish, getSkillData_floor]

theorem saber_dance_floor (e : Env) :
    saber_dance e.floor = saber_dance e := by
  simp only [saber_dance, getPotency_floor]

theorem tillana_floor (e : Env) :
    tillana e.floor = tillana e := by
  simp only [tillana, getPotency_floor]

theorem finishing_move_floor (e : Env) :
    finishing_move e.floor = finishing_move e := by
  simp only [finishing_move, getPotency_floor, get_standard_finish2_follow_up_floor] <;> rfl

theorem fan_dance_iv_floor (e : Env) :
    fan_dance_iv e.floor = fan_dance_iv e := by
  simp only [fan_dance_iv, getPotency_floor]

theorem starfall_dance_floor (e : Env) :
    starfall_dance e.floor = starfall_dance e := by
  simp only [starfall_dance, getPotency_floor]

theorem last_dance_floor (e : Env) :
    last_dance e.floor = last_dance e := by
  simp only [last_dance, getPotency_floor] <;> rfl

theorem dance_of_the_dawn_floor (e : Env) :
    dance_of_the_dawn e.floor = dance_of_the_dawn e := by
  simp only [dance_of_the_dawn, getPotency_floor] <;> rfl

theorem standard_step_floor (e : Env) : standard_step e.floor = standard_step e := rfl

theorem technical_step_floor (e : Env) : technical_step e.floor = technical_step e := rfl

theorem flourish_floor (e : Env) : flourish e.floor = flourish e := rfl

theorem step_actions_floor (e : Env) : step_actions e.floor = step_actions e := rfl

theorem job_floor (e : Env) :
    job e.floor = job e := by
  simp only [job, auto_floor, bladeshower_floor, bloodshower_floor, cascade_floor,
    dance_of_the_dawn_floor, devilment_floor, fan_dance_floor, fan_dance_ii_floor, fan_dance_iii_floor,
    fan_dance_iv_floor, finishing_move_floor, flourish_floor, fountain_floor, fountainfaill_floor,
    last_dance_floor, reverse_cascade_floor, rising_windmill_floor, saber_dance_floor,
    standard_finish_floor, standard_step_floor, starfall_dance_floor, step_actions_floor,
    technical_finish_floor, technical_step_floor, tillana_floor, windmill_floor]

end Ama.GameData.Dnc
