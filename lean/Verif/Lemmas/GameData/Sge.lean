import Verif.Lemmas.GameData.Floor
import Verif.Model.GameData.Sge

/-!
# The data of SGE for a version between two listed ones

Generated by `tools/floor.py`: method by method, the data for a version is that for the latest listed
version that is not above it.
-/

set_option linter.unnecessarySeqFocus false
set_option linter.unusedSimpArgs false

namespace Ama.GameData.Sge

theorem auto_floor (e : Env) : auto e.floor = auto e := rfl

theorem dosis_iii_floor (e : Env) :
    dosis_iii e.floor = dosis_iii e := by
  simp only [dosis_iii, getPotency_floor]

theorem phlegma_iii_floor (e : Env) :
    phlegma_iii e.floor = phlegma_iii e := by
  simp only [phlegma_iii, getPotency_floor]

theorem toxikon_ii_floor (e : Env) :
    toxikon_ii e.floor = toxikon_ii e := by
  simp only [toxikon_ii, getPotency_floor]

theorem dyskrasia_ii_floor (e : Env) :
    dyskrasia_ii e.floor = dyskrasia_ii e := by
  simp only [dyskrasia_ii, getPotency_floor]

theorem pneuma_floor (e : Env) :
    pneuma e.floor = pneuma e := by
  simp only [pneuma, getPotency_floor]

theorem eukrasia_floor (e : Env) : eukrasia e.floor = eukrasia e := rfl

theorem eukrasia_dosis_iii_floor (e : Env) :
    eukrasia_dosis_iii e.floor = eukrasia_dosis_iii e := by
  simp only [eukrasia_dosis_iii, getPotency_floor]

theorem eukrasian_dyskrasia_floor (e : Env) :
    eukrasian_dyskrasia e.floor = eukrasian_dyskrasia e := by
  simp only [eukrasian_dyskrasia, floor_lt, getSkillData_floor]

theorem psyche_floor (e : Env) :
    psyche e.floor = psyche e := by
  simp only [psyche, floor_lt, getPotency_floor] <;> rfl

theorem swiftcast_floor (e : Env) : swiftcast e.floor = swiftcast e := rfl

theorem job_floor (e : Env) :
    job e.floor = job e := by
  simp only [job, auto_floor, dosis_iii_floor, dyskrasia_ii_floor, eukrasia_floor,
    eukrasia_dosis_iii_floor, eukrasian_dyskrasia_floor, phlegma_iii_floor, pneuma_floor, psyche_floor,
    swiftcast_floor, toxikon_ii_floor]

end Ama.GameData.Sge
