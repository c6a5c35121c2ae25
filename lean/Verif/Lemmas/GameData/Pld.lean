import Verif.Lemmas.GameData.Floor
import Verif.Model.GameData.Pld

/-!
# The data of PLD for a version between two listed ones

Generated by `tools/floor.py`: method by method, the data for a version is that for the latest listed
version that is not above it.
-/

set_option linter.unnecessarySeqFocus false
set_option linter.unusedSimpArgs false

namespace Ama.GameData.Pld

theorem get_status_effect_priority_floor (e : Env) : get_status_effect_priority e.floor = get_status_effect_priority e := rfl

theorem get_combo_breakers_floor (e : Env) : get_combo_breakers e.floor = get_combo_breakers e := rfl

theorem req_charges_follow_up_floor (e : Env) : req_charges_follow_up e.floor = req_charges_follow_up e := rfl

theorem divine_might_follow_up_floor (e : Env) : divine_might_follow_up e.floor = divine_might_follow_up e := rfl

theorem auto_floor (e : Env) : auto e.floor = auto e := rfl

theorem fast_blade_floor (e : Env) :
    fast_blade e.floor = fast_blade e := by
  simp only [fast_blade, getPotency_floor]

theorem fight_or_flight_floor (e : Env) : fight_or_flight e.floor = fight_or_flight e := rfl

theorem riot_blade_floor (e : Env) :
    riot_blade e.floor = riot_blade e := by
  simp only [riot_blade, getPotency_floor, getPotencyNoCombo_floor]

theorem total_eclipse_floor (e : Env) :
    total_eclipse e.floor = total_eclipse e := by
  simp only [total_eclipse, getPotency_floor]

theorem shield_bash_floor (e : Env) :
    shield_bash e.floor = shield_bash e := by
  simp only [shield_bash, getPotency_floor]

theorem shield_lob_floor (e : Env) :
    shield_lob e.floor = shield_lob e := by
  simp only [shield_lob, getPotency_floor]

theorem prominence_floor (e : Env) :
    prominence e.floor = prominence e := by
  simp only [prominence, getPotency_floor, getPotencyNoCombo_floor, divine_might_follow_up_floor]

theorem circle_of_scorn_floor (e : Env) :
    circle_of_scorn e.floor = circle_of_scorn e := by
  simp only [circle_of_scorn, getPotency_floor]

theorem goring_blade_floor (e : Env) :
    goring_blade e.floor = goring_blade e := by
  simp only [goring_blade, getPotency_floor]

theorem royal_authority_floor (e : Env) :
    royal_authority e.floor = royal_authority e := by
  simp only [royal_authority, getPotency_floor, getPotencyNoCombo_floor, divine_might_follow_up_floor]

theorem holy_spirit_floor (e : Env) :
    holy_spirit e.floor = holy_spirit e := by
  simp only [holy_spirit, getSkillData_floor]

theorem requiescat_floor (e : Env) :
    requiescat e.floor = requiescat e := by
  simp only [requiescat, getPotency_floor, req_charges_follow_up_floor] <;> rfl

theorem imperator_floor (e : Env) :
    imperator e.floor = imperator e := by
  simp only [imperator, getPotency_floor, req_charges_follow_up_floor] <;> rfl

theorem holy_circle_floor (e : Env) :
    holy_circle e.floor = holy_circle e := by
  simp only [holy_circle, getSkillData_floor]

theorem intervene_floor (e : Env) :
    intervene e.floor = intervene e := by
  simp only [intervene, getPotency_floor]

theorem atonement_floor (e : Env) :
    atonement e.floor = atonement e := by
  simp only [atonement, getPotency_floor]

theorem supplication_floor (e : Env) :
    supplication e.floor = supplication e := by
  simp only [supplication, floor_lt, getPotency_floor]

theorem sepulchre_floor (e : Env) :
    sepulchre e.floor = sepulchre e := by
  simp only [sepulchre, floor_lt, getPotency_floor]

theorem confiteor_floor (e : Env) :
    confiteor e.floor = confiteor e := by
  simp only [confiteor, getSkillData_floor]

theorem expiacion_floor (e : Env) :
    expiacion e.floor = expiacion e := by
  simp only [expiacion, getPotency_floor]

theorem blade_of_faith_floor (e : Env) :
    blade_of_faith e.floor = blade_of_faith e := by
  simp only [blade_of_faith, getSkillData_floor]

theorem blade_of_truth_floor (e : Env) :
    blade_of_truth e.floor = blade_of_truth e := by
  simp only [blade_of_truth, getSkillData_floor]

theorem blade_of_valor_floor (e : Env) :
    blade_of_valor e.floor = blade_of_valor e := by
  simp only [blade_of_valor, getSkillData_floor]

theorem blade_of_honor_floor (e : Env) :
    blade_of_honor e.floor = blade_of_honor e := by
  simp only [blade_of_honor, getPotency_floor] <;> rfl

theorem passage_of_arms_floor (e : Env) : passage_of_arms e.floor = passage_of_arms e := rfl

theorem rampart_floor (e : Env) : rampart e.floor = rampart e := rfl

theorem provoke_floor (e : Env) : provoke e.floor = provoke e := rfl

theorem reprisal_floor (e : Env) : reprisal e.floor = reprisal e := rfl

theorem arms_length_floor (e : Env) : arms_length e.floor = arms_length e := rfl

theorem shirk_floor (e : Env) : shirk e.floor = shirk e := rfl

theorem job_floor (e : Env) :
    job e.floor = job e := by
  simp only [job, get_status_effect_priority_floor, get_combo_breakers_floor, arms_length_floor,
    atonement_floor, auto_floor, blade_of_faith_floor, blade_of_honor_floor, blade_of_truth_floor,
    blade_of_valor_floor, circle_of_scorn_floor, confiteor_floor, expiacion_floor, fast_blade_floor,
    fight_or_flight_floor, goring_blade_floor, holy_circle_floor, holy_spirit_floor, imperator_floor,
    intervene_floor, passage_of_arms_floor, prominence_floor, provoke_floor, rampart_floor,
    reprisal_floor, requiescat_floor, riot_blade_floor, royal_authority_floor, sepulchre_floor,
    shield_bash_floor, shield_lob_floor, shirk_floor, supplication_floor, total_eclipse_floor]

end Ama.GameData.Pld
