import Verif.Lemmas.GameData.Floor
import Verif.Model.GameData.Brd

/-!
# The data of BRD for a version between two listed ones

Generated by `tools/floor.py`: method by method, the data for a version is that for the latest listed
version that is not above it.
-/

set_option linter.unnecessarySeqFocus false
set_option linter.unusedSimpArgs false

namespace Ama.GameData.Brd

theorem mages_coda_floor (e : Env) : mages_coda e.floor = mages_coda e := rfl

theorem armys_coda_floor (e : Env) : armys_coda e.floor = armys_coda e := rfl

theorem wanderers_coda_floor (e : Env) : wanderers_coda e.floor = wanderers_coda e := rfl

theorem soul_voice_floor (e : Env) : soul_voice e.floor = soul_voice e := rfl

theorem repertoire_floor (e : Env) : repertoire e.floor = repertoire e := rfl

theorem auto_floor (e : Env) : auto e.floor = auto e := rfl

theorem get_stormbite_follow_up_floor (e : Env) :
    get_stormbite_follow_up e.floor = get_stormbite_follow_up e := by
  simp only [get_stormbite_follow_up, getPotency_floor]

theorem get_caustic_bite_follow_up_floor (e : Env) :
    get_caustic_bite_follow_up e.floor = get_caustic_bite_follow_up e := by
  simp only [get_caustic_bite_follow_up, getPotency_floor]

theorem armys_paeon_floor (e : Env) :
    armys_paeon e.floor = armys_paeon e := by
  simp only [armys_paeon, floor_ge, getPotency_floor]

theorem get_army_muse_follow_ups_floor (e : Env) : get_army_muse_follow_ups e.floor = get_army_muse_follow_ups e := rfl

theorem raging_strikes_floor (e : Env) : raging_strikes e.floor = raging_strikes e := rfl

theorem bloodletter_floor (e : Env) :
    bloodletter e.floor = bloodletter e := by
  simp only [bloodletter, getPotency_floor]

theorem mages_ballad_floor (e : Env) :
    mages_ballad e.floor = mages_ballad e := by
  simp only [mages_ballad, floor_ge, getPotency_floor, get_army_muse_follow_ups_floor]

theorem rain_of_death_floor (e : Env) :
    rain_of_death e.floor = rain_of_death e := by
  simp only [rain_of_death, getPotency_floor]

theorem battle_voice_floor (e : Env) :
    battle_voice e.floor = battle_voice e := by
  simp only [battle_voice, getSkillData_floor]

theorem the_wanderers_minuet_floor (e : Env) :
    the_wanderers_minuet e.floor = the_wanderers_minuet e := by
  simp only [the_wanderers_minuet, floor_ge, getPotency_floor, get_army_muse_follow_ups_floor]

theorem pitch_perfect_floor (e : Env) :
    pitch_perfect e.floor = pitch_perfect e := by
  simp only [pitch_perfect, getSkillData_floor]

theorem empyreal_arrow_floor (e : Env) :
    empyreal_arrow e.floor = empyreal_arrow e := by
  simp only [empyreal_arrow, getPotency_floor]

theorem iron_jaws_floor (e : Env) :
    iron_jaws e.floor = iron_jaws e := by
  simp only [iron_jaws, floor_ge, getPotency_floor, get_stormbite_follow_up_floor,
    get_caustic_bite_follow_up_floor]

theorem sidewinder_floor (e : Env) :
    sidewinder e.floor = sidewinder e := by
  simp only [sidewinder, getPotency_floor]

theorem cautic_bite_floor (e : Env) :
    cautic_bite e.floor = cautic_bite e := by
  simp only [cautic_bite, floor_ge, getPotency_floor, get_caustic_bite_follow_up_floor]

theorem stormbite_floor (e : Env) :
    stormbite e.floor = stormbite e := by
  simp only [stormbite, floor_ge, getPotency_floor, get_stormbite_follow_up_floor]

theorem refulgent_arrow_floor (e : Env) :
    refulgent_arrow e.floor = refulgent_arrow e := by
  simp only [refulgent_arrow, getPotency_floor]

theorem shadowbite_floor (e : Env) :
    shadowbite e.floor = shadowbite e := by
  simp only [shadowbite, getSkillData_floor]

theorem burst_shot_floor (e : Env) :
    burst_shot e.floor = burst_shot e := by
  simp only [burst_shot, floor_ge, getPotency_floor]

theorem apex_arrow_floor (e : Env) :
    apex_arrow e.floor = apex_arrow e := by
  simp only [apex_arrow, getSkillData_floor]

theorem ladonsbite_floor (e : Env) :
    ladonsbite e.floor = ladonsbite e := by
  simp only [ladonsbite, getPotency_floor]

theorem blast_arrow_floor (e : Env) :
    blast_arrow e.floor = blast_arrow e := by
  simp only [blast_arrow, getPotency_floor]

theorem radiant_finale_floor (e : Env) :
    radiant_finale e.floor = radiant_finale e := by
  simp only [radiant_finale, getSkillData_floor] <;> rfl

theorem barrage_floor (e : Env) :
    barrage e.floor = barrage e := by
  simp only [barrage, floor_ge]

theorem heartbreak_shot_floor (e : Env) :
    heartbreak_shot e.floor = heartbreak_shot e := by
  simp only [heartbreak_shot, getPotency_floor] <;> rfl

theorem resonant_arrow_floor (e : Env) :
    resonant_arrow e.floor = resonant_arrow e := by
  simp only [resonant_arrow, getPotency_floor] <;> rfl

theorem radiant_encore_floor (e : Env) :
    radiant_encore e.floor = radiant_encore e := by
  simp only [radiant_encore, getSkillData_floor] <;> rfl

theorem add_soul_voice_floor (e : Env) : add_soul_voice e.floor = add_soul_voice e := rfl

theorem add_repertoire_floor (e : Env) : add_repertoire e.floor = add_repertoire e := rfl

theorem job_floor (e : Env) :
    job e.floor = job e := by
  simp only [job, add_repertoire_floor, add_soul_voice_floor, apex_arrow_floor, armys_paeon_floor,
    auto_floor, barrage_floor, battle_voice_floor, blast_arrow_floor, bloodletter_floor,
    burst_shot_floor, cautic_bite_floor, empyreal_arrow_floor, heartbreak_shot_floor, iron_jaws_floor,
    ladonsbite_floor, mages_ballad_floor, pitch_perfect_floor, radiant_encore_floor,
    radiant_finale_floor, raging_strikes_floor, rain_of_death_floor, refulgent_arrow_floor,
    resonant_arrow_floor, shadowbite_floor, sidewinder_floor, stormbite_floor,
    the_wanderers_minuet_floor, armys_coda_floor, mages_coda_floor, repertoire_floor, soul_voice_floor,
    wanderers_coda_floor]

end Ama.GameData.Brd
