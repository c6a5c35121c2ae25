import Verif.Lemmas.GameData.Floor
import Verif.Model.GameData.War

/-!
# The data of WAR for a version between two listed ones

Generated by `tools/floor.py`: method by method, the data for a version is that for the latest listed
version that is not above it.
-/

set_option linter.unnecessarySeqFocus false
set_option linter.unusedSimpArgs false

namespace Ama.GameData.War

theorem surging_tempest_followup_floor (e : Env) : surging_tempest_followup e.floor = surging_tempest_followup e := rfl

theorem auto_floor (e : Env) : auto e.floor = auto e := rfl

theorem heavy_swing_floor (e : Env) :
    heavy_swing e.floor = heavy_swing e := by
  simp only [heavy_swing, getPotency_floor]

theorem maim_floor (e : Env) :
    maim e.floor = maim e := by
  simp only [maim, getPotency_floor, getPotencyNoCombo_floor]

theorem storms_path_floor (e : Env) :
    storms_path e.floor = storms_path e := by
  simp only [storms_path, getPotency_floor, getPotencyNoCombo_floor]

theorem storms_eye_floor (e : Env) :
    storms_eye e.floor = storms_eye e := by
  simp only [storms_eye, getPotency_floor, getPotencyNoCombo_floor, surging_tempest_followup_floor]

theorem inner_release_floor (e : Env) : inner_release e.floor = inner_release e := rfl

theorem upheaval_floor (e : Env) :
    upheaval e.floor = upheaval e := by
  simp only [upheaval, getPotency_floor]

theorem onslaught_floor (e : Env) :
    onslaught e.floor = onslaught e := by
  simp only [onslaught, getPotency_floor]

theorem fell_cleave_floor (e : Env) :
    fell_cleave e.floor = fell_cleave e := by
  simp only [fell_cleave, getPotency_floor]

theorem primal_rend_floor (e : Env) :
    primal_rend e.floor = primal_rend e := by
  simp only [primal_rend, getPotency_floor]

theorem inner_chaos_floor (e : Env) :
    inner_chaos e.floor = inner_chaos e := by
  simp only [inner_chaos, getPotency_floor]

theorem chaotic_cyclone_floor (e : Env) :
    chaotic_cyclone e.floor = chaotic_cyclone e := by
  simp only [chaotic_cyclone, getPotency_floor]

theorem tomahawk_floor (e : Env) :
    tomahawk e.floor = tomahawk e := by
  simp only [tomahawk, getPotency_floor]

theorem overpower_floor (e : Env) :
    overpower e.floor = overpower e := by
  simp only [overpower, getPotency_floor]

theorem mythril_tempest_floor (e : Env) :
    mythril_tempest e.floor = mythril_tempest e := by
  simp only [mythril_tempest, getPotency_floor, getPotencyNoCombo_floor, surging_tempest_followup_floor]

theorem orogeny_floor (e : Env) :
    orogeny e.floor = orogeny e := by
  simp only [orogeny, getPotency_floor]

theorem decimate_floor (e : Env) :
    decimate e.floor = decimate e := by
  simp only [decimate, getPotency_floor]

theorem vengance_floor (e : Env) :
    vengance e.floor = vengance e := by
  simp only [vengance, getPotency_floor] <;> rfl

theorem damnation_floor (e : Env) :
    damnation e.floor = damnation e := by
  simp only [damnation, getPotency_floor] <;> rfl

theorem primal_wrath_floor (e : Env) :
    primal_wrath e.floor = primal_wrath e := by
  simp only [primal_wrath, getPotency_floor] <;> rfl

theorem primal_ruination_floor (e : Env) :
    primal_ruination e.floor = primal_ruination e := by
  simp only [primal_ruination, getPotency_floor] <;> rfl

theorem infuriate_floor (e : Env) : infuriate e.floor = infuriate e := rfl

theorem defiance_floor (e : Env) : defiance e.floor = defiance e := rfl

theorem thrill_floor (e : Env) : thrill e.floor = thrill e := rfl

theorem holmgang_floor (e : Env) : holmgang e.floor = holmgang e := rfl

theorem equilibrium_floor (e : Env) : equilibrium e.floor = equilibrium e := rfl

theorem shake_floor (e : Env) : shake e.floor = shake e := rfl

theorem nascent_floor (e : Env) : nascent e.floor = nascent e := rfl

theorem bloodwhetting_floor (e : Env) : bloodwhetting e.floor = bloodwhetting e := rfl

theorem rampart_floor (e : Env) : rampart e.floor = rampart e := rfl

theorem provoke_floor (e : Env) : provoke e.floor = provoke e := rfl

theorem reprisal_floor (e : Env) : reprisal e.floor = reprisal e := rfl

theorem arms_length_floor (e : Env) : arms_length e.floor = arms_length e := rfl

theorem shirk_floor (e : Env) : shirk e.floor = shirk e := rfl

theorem job_floor (e : Env) :
    job e.floor = job e := by
  simp only [job, arms_length_floor, auto_floor, bloodwhetting_floor, chaotic_cyclone_floor,
    damnation_floor, decimate_floor, defiance_floor, equilibrium_floor, fell_cleave_floor,
    heavy_swing_floor, holmgang_floor, infuriate_floor, inner_chaos_floor, inner_release_floor,
    maim_floor, mythril_tempest_floor, nascent_floor, onslaught_floor, orogeny_floor, overpower_floor,
    primal_rend_floor, primal_ruination_floor, primal_wrath_floor, provoke_floor, rampart_floor,
    reprisal_floor, shake_floor, shirk_floor, storms_eye_floor, storms_path_floor, thrill_floor,
    tomahawk_floor, upheaval_floor, vengance_floor]

end Ama.GameData.War
