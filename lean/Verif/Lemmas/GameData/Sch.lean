import Verif.Lemmas.GameData.Floor
import Verif.Model.GameData.Sch

/-!
# The data of SCH for a version between two listed ones

Generated by `tools/floor.py`: method by method, the data for a version is that for the latest listed
version that is not above it.
-/

set_option linter.unnecessarySeqFocus false
set_option linter.unusedSimpArgs false

namespace Ama.GameData.Sch

theorem auto_floor (e : Env) : auto e.floor = auto e := rfl

theorem broil_iv_floor (e : Env) :
    broil_iv e.floor = broil_iv e := by
  simp only [broil_iv, getPotency_floor]

theorem ruin_ii_floor (e : Env) :
    ruin_ii e.floor = ruin_ii e := by
  simp only [ruin_ii, getPotency_floor]

theorem energy_drain_floor (e : Env) :
    energy_drain e.floor = energy_drain e := by
  simp only [energy_drain, getPotency_floor]

theorem art_of_war_ii_floor (e : Env) :
    art_of_war_ii e.floor = art_of_war_ii e := by
  simp only [art_of_war_ii, getPotency_floor]

theorem add_chain_stratagem_floor (e : Env) :
    add_chain_stratagem e.floor = add_chain_stratagem e := by
  simp only [add_chain_stratagem, getSkillData_floor]

theorem biolysis_floor (e : Env) :
    biolysis e.floor = biolysis e := by
  simp only [biolysis, getPotency_floor]

theorem baneful_impaction_floor (e : Env) :
    baneful_impaction e.floor = baneful_impaction e := by
  simp only [baneful_impaction, getPotency_floor] <;> rfl

theorem swiftcast_floor (e : Env) : swiftcast e.floor = swiftcast e := rfl

theorem dissipation_floor (e : Env) : dissipation e.floor = dissipation e := rfl

theorem aetherflow_floor (e : Env) : aetherflow e.floor = aetherflow e := rfl

theorem concitation_floor (e : Env) :
    concitation e.floor = concitation e := by rfl

theorem manifestation_floor (e : Env) :
    manifestation e.floor = manifestation e := by rfl

theorem accession_floor (e : Env) :
    accession e.floor = accession e := by rfl

theorem job_floor (e : Env) :
    job e.floor = job e := by
  simp only [job, accession_floor, add_chain_stratagem_floor, aetherflow_floor, art_of_war_ii_floor,
    auto_floor, baneful_impaction_floor, biolysis_floor, broil_iv_floor, concitation_floor,
    dissipation_floor, energy_drain_floor, manifestation_floor, ruin_ii_floor, swiftcast_floor]

end Ama.GameData.Sch
