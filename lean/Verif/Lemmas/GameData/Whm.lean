import Verif.Lemmas.GameData.Floor
import Verif.Model.GameData.Whm

/-!
# The data of WHM for a version between two listed ones

Generated by `tools/floor.py`: method by method, the data for a version is that for the latest listed
version that is not above it.
-/

set_option linter.unnecessarySeqFocus false
set_option linter.unusedSimpArgs false

namespace Ama.GameData.Whm

theorem auto_floor (e : Env) : auto e.floor = auto e := rfl

theorem glare_iii_floor (e : Env) :
    glare_iii e.floor = glare_iii e := by
  simp only [glare_iii, getPotency_floor]

theorem glare_iv_floor (e : Env) :
    glare_iv e.floor = glare_iv e := by
  simp only [glare_iv, getPotency_floor] <;> rfl

theorem assize_floor (e : Env) :
    assize e.floor = assize e := by
  simp only [assize, getPotency_floor]

theorem dia_floor (e : Env) :
    dia e.floor = dia e := by
  simp only [dia, getPotency_floor]

theorem afflatus_misery_floor (e : Env) :
    afflatus_misery e.floor = afflatus_misery e := by
  simp only [afflatus_misery, getPotency_floor]

theorem holy_iii_floor (e : Env) :
    holy_iii e.floor = holy_iii e := by
  simp only [holy_iii, getSkillData_floor, getPotency_floor]

theorem presence_of_mind_floor (e : Env) : presence_of_mind e.floor = presence_of_mind e := rfl

theorem afflatus_rapture_floor (e : Env) : afflatus_rapture e.floor = afflatus_rapture e := rfl

theorem afflatus_solace_floor (e : Env) : afflatus_solace e.floor = afflatus_solace e := rfl

theorem medica_iii_floor (e : Env) :
    medica_iii e.floor = medica_iii e := by rfl

theorem divine_caress_floor (e : Env) :
    divine_caress e.floor = divine_caress e := by rfl

theorem swiftcast_floor (e : Env) : swiftcast e.floor = swiftcast e := rfl

theorem job_floor (e : Env) :
    job e.floor = job e := by
  simp only [job, afflatus_misery_floor, afflatus_rapture_floor, afflatus_solace_floor, assize_floor,
    auto_floor, dia_floor, divine_caress_floor, glare_iii_floor, glare_iv_floor, holy_iii_floor,
    medica_iii_floor, presence_of_mind_floor, swiftcast_floor]

end Ama.GameData.Whm
