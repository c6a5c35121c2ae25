import Verif.Lemmas.GameData.Floor
import Verif.Model.GameData.Nin

/-!
# The data of NIN for a version between two listed ones

Generated by `tools/floor.py`: method by method, the data for a version is that for the latest listed
version that is not above it, under the conditions stated where the code compares with `<=`, `>`, `==` or `!=`.
-/

set_option linter.unnecessarySeqFocus false
set_option linter.unusedSimpArgs false

namespace Ama.GameData.Nin

theorem get_all_bunshin_follow_ups_floor (e : Env) :
    get_all_bunshin_follow_ups e.floor = get_all_bunshin_follow_ups e := by
  simp only [get_all_bunshin_follow_ups, getSkillData_floor]

theorem attr_all_bunshin_follow_ups_floor (e : Env) :
    attr_all_bunshin_follow_ups e.floor = attr_all_bunshin_follow_ups e := by
  simp only [attr_all_bunshin_follow_ups, get_all_bunshin_follow_ups_floor]

theorem attr_ninjutsus_floor (e : Env) : attr_ninjutsus e.floor = attr_ninjutsus e := rfl

theorem get_mudra_timing_spec_floor (e : Env) : get_mudra_timing_spec e.floor = get_mudra_timing_spec e := rfl

theorem attr_mudra_timing_spec_floor (e : Env) :
    attr_mudra_timing_spec e.floor = attr_mudra_timing_spec e := by
  simp only [attr_mudra_timing_spec, get_mudra_timing_spec_floor]

theorem kazematoi_floor (e : Env) :
    kazematoi e.floor = kazematoi e := by
  simp only [kazematoi, floor_lt]

theorem get_huton_follow_up_huton_floor (e : Env) :
    get_huton_follow_up_huton e.floor = get_huton_follow_up_huton e := by
  simp only [get_huton_follow_up_huton, floor_ge]

theorem get_huton_follow_up_hakke_floor (e : Env) :
    get_huton_follow_up_hakke e.floor = get_huton_follow_up_hakke e := by
  simp only [get_huton_follow_up_hakke, floor_ge]

theorem get_huton_follow_up_armor_crush_floor (e : Env) : get_huton_follow_up_armor_crush e.floor = get_huton_follow_up_armor_crush e := rfl

theorem dream_within_a_dream_floor (e : Env) :
    dream_within_a_dream e.floor = dream_within_a_dream e := by
  simp only [dream_within_a_dream, getPotency_floor]

theorem auto_floor (e : Env) : auto e.floor = auto e := rfl

theorem doton_floor (e : Env) : doton e.floor = doton e := rfl

theorem hollow_nozuchi_floor (e : Env) : hollow_nozuchi e.floor = hollow_nozuchi e := rfl

theorem spinning_edge_floor (e : Env) :
    spinning_edge e.floor = spinning_edge e := by
  simp only [spinning_edge, getPotency_floor, attr_all_bunshin_follow_ups_floor]

theorem gust_slash_floor (e : Env) :
    gust_slash e.floor = gust_slash e := by
  simp only [gust_slash, getPotency_floor, getPotencyNoCombo_floor, attr_all_bunshin_follow_ups_floor]

theorem throwing_dagger_floor (e : Env) :
    throwing_dagger e.floor = throwing_dagger e := by
  simp only [throwing_dagger, getPotency_floor, attr_all_bunshin_follow_ups_floor]

theorem mug_floor (e : Env) :
    mug e.floor = mug e := by
  simp only [mug, floor_ge, getSkillData_floor, getPotency_floor]

theorem trick_attack_floor (e : Env) :
    trick_attack e.floor = trick_attack e := by
  simp only [trick_attack, getPotency_floor, getPotencyNoPositional_floor] <;> rfl

theorem aeolian_edge_floor (e : Env) :
    aeolian_edge e.floor = aeolian_edge e := by
  simp only [aeolian_edge, floor_ge, getSkillData_floor, getPotency_floor, getPotencyNoCombo_floor,
    getPotencyNoPositional_floor, attr_all_bunshin_follow_ups_floor]

theorem death_blossom_floor (e : Env) :
    death_blossom e.floor = death_blossom e := by
  simp only [death_blossom, getPotency_floor, attr_all_bunshin_follow_ups_floor]

theorem hakke_mujinsatsu_floor (e : Env) :
    hakke_mujinsatsu e.floor = hakke_mujinsatsu e := by
  simp only [hakke_mujinsatsu, floor_ge, getPotency_floor, getPotencyNoCombo_floor,
    get_huton_follow_up_hakke_floor, attr_all_bunshin_follow_ups_floor]

theorem armor_crush_floor (e : Env) :
    armor_crush e.floor = armor_crush e := by
  simp only [armor_crush, floor_ge, getSkillData_floor, getPotency_floor, getPotencyNoCombo_floor,
    getPotencyNoPositional_floor, get_huton_follow_up_armor_crush_floor,
    attr_all_bunshin_follow_ups_floor]

theorem dokumori_floor (e : Env) (h2 : e.pos ≠ 2) :
    dokumori e.floor = dokumori e := by
  simp only [dokumori, floor_ge, getSkillData_floor, getPotency_floor,
    floor_le (e := e) (p := .p655) h2]

theorem huraijin_floor (e : Env) (h2 : e.pos ≠ 2) :
    huraijin e.floor = huraijin e := by
  simp only [huraijin, getPotency_floor, floor_gt (e := e) (p := .p655) h2,
    get_huton_follow_up_huton_floor, attr_all_bunshin_follow_ups_floor]

theorem hellfrog_medium_floor (e : Env) :
    hellfrog_medium e.floor = hellfrog_medium e := by
  simp only [hellfrog_medium, getPotency_floor]

theorem bhavacakra_floor (e : Env) :
    bhavacakra e.floor = bhavacakra e := by
  simp only [bhavacakra, getSkillData_floor, getPotency_floor]

theorem phantom_kamaitachi_floor (e : Env) :
    phantom_kamaitachi e.floor = phantom_kamaitachi e := by
  simp only [phantom_kamaitachi, getPotency_floor]

theorem forked_raiju_floor (e : Env) :
    forked_raiju e.floor = forked_raiju e := by
  simp only [forked_raiju, getPotency_floor, attr_all_bunshin_follow_ups_floor]

theorem fleeting_raiju_floor (e : Env) :
    fleeting_raiju e.floor = fleeting_raiju e := by
  simp only [fleeting_raiju, getPotency_floor, attr_all_bunshin_follow_ups_floor]

theorem fuma_shuriken_floor (e : Env) :
    fuma_shuriken e.floor = fuma_shuriken e := by
  simp only [fuma_shuriken, getPotency_floor]

theorem katon_floor (e : Env) :
    katon e.floor = katon e := by
  simp only [katon, getPotency_floor]

theorem raiton_floor (e : Env) :
    raiton e.floor = raiton e := by
  simp only [raiton, getPotency_floor]

theorem hyoton_floor (e : Env) :
    hyoton e.floor = hyoton e := by
  simp only [hyoton, getPotency_floor]

theorem huton_floor (e : Env) (h2 : e.pos ≠ 2) :
    huton e.floor = huton e := by
  simp only [huton, getSkillData_floor, floor_eq (e := e) (p := .p655) h2,
    get_huton_follow_up_huton_floor]

theorem suiton_floor (e : Env) :
    suiton e.floor = suiton e := by
  simp only [suiton, getPotency_floor]

theorem goka_mekkyaku_floor (e : Env) :
    goka_mekkyaku e.floor = goka_mekkyaku e := by
  simp only [goka_mekkyaku, getPotency_floor]

theorem hyosho_ranryu_floor (e : Env) :
    hyosho_ranryu e.floor = hyosho_ranryu e := by
  simp only [hyosho_ranryu, getPotency_floor]

theorem bunshin_floor (e : Env) :
    bunshin e.floor = bunshin e := by
  simp only [bunshin, getSkillData_floor]

theorem ten_chi_jin_floor (e : Env) :
    ten_chi_jin e.floor = ten_chi_jin e := by
  simp only [ten_chi_jin, attr_ninjutsus_floor]

theorem meisui_floor (e : Env) :
    meisui e.floor = meisui e := by
  simp only [meisui, getSkillData_floor]

theorem kunais_bane_floor (e : Env) :
    kunais_bane e.floor = kunais_bane e := by
  simp only [kunais_bane, getSkillData_floor, getPotency_floor] <;> rfl

theorem deathfrog_medium_floor (e : Env) :
    deathfrog_medium e.floor = deathfrog_medium e := by
  simp only [deathfrog_medium, getPotency_floor] <;> rfl

theorem zesho_meppo_floor (e : Env) :
    zesho_meppo e.floor = zesho_meppo e := by
  simp only [zesho_meppo, getSkillData_floor, getPotency_floor] <;> rfl

theorem tenri_jindo_floor (e : Env) :
    tenri_jindo e.floor = tenri_jindo e := by
  simp only [tenri_jindo, getPotency_floor] <;> rfl

theorem kassatsu_floor (e : Env) : kassatsu e.floor = kassatsu e := rfl

theorem ten_floor (e : Env) :
    ten e.floor = ten e := by
  simp only [ten, attr_mudra_timing_spec_floor]

theorem chi_floor (e : Env) :
    chi e.floor = chi e := by
  simp only [chi, attr_mudra_timing_spec_floor]

theorem jin_floor (e : Env) :
    jin e.floor = jin e := by
  simp only [jin, attr_mudra_timing_spec_floor]

theorem true_north_floor (e : Env) : true_north e.floor = true_north e := rfl

theorem hide_floor (e : Env) : hide e.floor = hide e := rfl

theorem job_floor (e : Env) (h2 : e.pos ≠ 2) :
    job e.floor = job e := by
  simp only [job, attr_all_bunshin_follow_ups_floor, attr_ninjutsus_floor,
    attr_mudra_timing_spec_floor, aeolian_edge_floor, armor_crush_floor, auto_floor, bhavacakra_floor,
    bunshin_floor, chi_floor, death_blossom_floor, deathfrog_medium_floor, dokumori_floor e h2,
    doton_floor, dream_within_a_dream_floor, fleeting_raiju_floor, forked_raiju_floor,
    fuma_shuriken_floor, goka_mekkyaku_floor, gust_slash_floor, hakke_mujinsatsu_floor,
    hellfrog_medium_floor, hide_floor, hollow_nozuchi_floor, huraijin_floor e h2, huton_floor e h2,
    hyosho_ranryu_floor, hyoton_floor, jin_floor, kassatsu_floor, katon_floor, kunais_bane_floor,
    meisui_floor, mug_floor, phantom_kamaitachi_floor, raiton_floor, spinning_edge_floor, suiton_floor,
    ten_floor, ten_chi_jin_floor, tenri_jindo_floor, throwing_dagger_floor, trick_attack_floor,
    true_north_floor, zesho_meppo_floor, kazematoi_floor]

end Ama.GameData.Nin
