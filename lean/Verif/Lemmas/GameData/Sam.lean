import Verif.Lemmas.GameData.Floor
import Verif.Model.GameData.Sam

/-!
# The data of SAM for a version between two listed ones

Generated by `tools/floor.py`: method by method, the data for a version is that for the latest listed
version that is not above it, under the conditions stated where the code compares with `<=`, `>`, `==` or `!=`.
-/

set_option linter.unnecessarySeqFocus false
set_option linter.unusedSimpArgs false

namespace Ama.GameData.Sam

theorem get_fugetsu_follow_up_floor (e : Env) : get_fugetsu_follow_up e.floor = get_fugetsu_follow_up e := rfl

theorem get_fuka_follow_up_floor (e : Env) : get_fuka_follow_up e.floor = get_fuka_follow_up e := rfl

theorem auto_floor (e : Env) : auto e.floor = auto e := rfl

theorem hakaze_floor (e : Env) :
    hakaze e.floor = hakaze e := by
  simp only [hakaze, getPotency_floor] <;> rfl

theorem gyofu_floor (e : Env) :
    gyofu e.floor = gyofu e := by
  simp only [gyofu, getPotency_floor] <;> rfl

theorem jinpu_floor (e : Env) :
    jinpu e.floor = jinpu e := by
  simp only [jinpu, getSkillData_floor, getPotency_floor, getPotencyNoCombo_floor,
    get_fugetsu_follow_up_floor]

theorem enpi_floor (e : Env) :
    enpi e.floor = enpi e := by
  simp only [enpi, getSkillData_floor, getPotency_floor]

theorem hissatsu_yaten_floor (e : Env) :
    hissatsu_yaten e.floor = hissatsu_yaten e := by
  simp only [hissatsu_yaten, getPotency_floor]

theorem shifu_floor (e : Env) :
    shifu e.floor = shifu e := by
  simp only [shifu, getSkillData_floor, getPotency_floor, getPotencyNoCombo_floor,
    get_fuka_follow_up_floor]

theorem gekko_floor (e : Env) :
    gekko e.floor = gekko e := by
  simp only [gekko, getSkillData_floor, getPotency_floor, getPotencyNoCombo_floor,
    getPotencyNoPositional_floor, get_fugetsu_follow_up_floor]

theorem get_iaijutsu_timing_floor (e : Env) : get_iaijutsu_timing e.floor = get_iaijutsu_timing e := rfl

theorem get_higanbana_follow_up_floor (e : Env) :
    get_higanbana_follow_up e.floor = get_higanbana_follow_up e := by
  simp only [get_higanbana_follow_up, getPotency_floor]

theorem higanbana_floor (e : Env) :
    higanbana e.floor = higanbana e := by
  simp only [higanbana, getPotency_floor, get_iaijutsu_timing_floor, get_higanbana_follow_up_floor]

theorem tenka_goken_floor (e : Env) :
    tenka_goken e.floor = tenka_goken e := by
  simp only [tenka_goken, getPotency_floor, get_iaijutsu_timing_floor]

theorem midare_setsugekka_floor (e : Env) :
    midare_setsugekka e.floor = midare_setsugekka e := by
  simp only [midare_setsugekka, getPotency_floor, get_iaijutsu_timing_floor]

theorem kaeshi_higanbana_floor (e : Env) (h2 : e.pos ≠ 2) :
    kaeshi_higanbana e.floor = kaeshi_higanbana e := by
  simp only [kaeshi_higanbana, getPotency_floor, floor_gt (e := e) (p := .p655) h2,
    get_higanbana_follow_up_floor]

theorem kaeshi_goken_floor (e : Env) :
    kaeshi_goken e.floor = kaeshi_goken e := by
  simp only [kaeshi_goken, getPotency_floor]

theorem kaeshi_setsugekka_floor (e : Env) :
    kaeshi_setsugekka e.floor = kaeshi_setsugekka e := by
  simp only [kaeshi_setsugekka, getPotency_floor]

theorem mangetsu_floor (e : Env) :
    mangetsu e.floor = mangetsu e := by
  simp only [mangetsu, getPotency_floor, getPotencyNoCombo_floor, get_fugetsu_follow_up_floor]

theorem kasha_floor (e : Env) :
    kasha e.floor = kasha e := by
  simp only [kasha, getSkillData_floor, getPotency_floor, getPotencyNoCombo_floor,
    getPotencyNoPositional_floor, get_fuka_follow_up_floor]

theorem oka_floor (e : Env) :
    oka e.floor = oka e := by
  simp only [oka, getPotency_floor, getPotencyNoCombo_floor, get_fuka_follow_up_floor]

theorem yukikaze_floor (e : Env) :
    yukikaze e.floor = yukikaze e := by
  simp only [yukikaze, getSkillData_floor, getPotency_floor, getPotencyNoCombo_floor]

theorem hissatsu_shinten_floor (e : Env) :
    hissatsu_shinten e.floor = hissatsu_shinten e := by
  simp only [hissatsu_shinten, getPotency_floor]

theorem hissatsu_gyoten_floor (e : Env) :
    hissatsu_gyoten e.floor = hissatsu_gyoten e := by
  simp only [hissatsu_gyoten, getPotency_floor]

theorem hissatsu_kyuten_floor (e : Env) :
    hissatsu_kyuten e.floor = hissatsu_kyuten e := by
  simp only [hissatsu_kyuten, getPotency_floor]

theorem hissatsu_guren_floor (e : Env) :
    hissatsu_guren e.floor = hissatsu_guren e := by
  simp only [hissatsu_guren, getPotency_floor]

theorem hissatsu_senei_floor (e : Env) :
    hissatsu_senei e.floor = hissatsu_senei e := by
  simp only [hissatsu_senei, getPotency_floor]

theorem shoha_floor (e : Env) :
    shoha e.floor = shoha e := by
  simp only [shoha, getPotency_floor]

theorem shoha_ii_floor (e : Env) (h2 : e.pos ≠ 2) :
    shoha_ii e.floor = shoha_ii e := by
  simp only [shoha_ii, getPotency_floor, floor_gt (e := e) (p := .p655) h2]

theorem fuko_floor (e : Env) :
    fuko e.floor = fuko e := by
  simp only [fuko, getPotency_floor]

theorem ogi_namikiri_floor (e : Env) :
    ogi_namikiri e.floor = ogi_namikiri e := by
  simp only [ogi_namikiri, getPotency_floor]

theorem kaeshi_namikiri_floor (e : Env) :
    kaeshi_namikiri e.floor = kaeshi_namikiri e := by
  simp only [kaeshi_namikiri, getPotency_floor]

theorem zanshin_floor (e : Env) :
    zanshin e.floor = zanshin e := by
  simp only [zanshin, getPotency_floor] <;> rfl

theorem tendo_goken_floor (e : Env) :
    tendo_goken e.floor = tendo_goken e := by
  simp only [tendo_goken, getPotency_floor] <;> rfl

theorem tendo_setsugekka_floor (e : Env) :
    tendo_setsugekka e.floor = tendo_setsugekka e := by
  simp only [tendo_setsugekka, getSkillData_floor, getPotency_floor] <;> rfl

theorem tendo_kaeshi_goken_floor (e : Env) :
    tendo_kaeshi_goken e.floor = tendo_kaeshi_goken e := by
  simp only [tendo_kaeshi_goken, getPotency_floor] <;> rfl

theorem tendo_kaeshi_setsugekka_floor (e : Env) :
    tendo_kaeshi_setsugekka e.floor = tendo_kaeshi_setsugekka e := by
  simp only [tendo_kaeshi_setsugekka, getSkillData_floor, getPotency_floor] <;> rfl

theorem meikyo_shisui_floor (e : Env) : meikyo_shisui e.floor = meikyo_shisui e := rfl

theorem true_north_floor (e : Env) : true_north e.floor = true_north e := rfl

theorem tengentsu_floor (e : Env) : tengentsu e.floor = tengentsu e := rfl

theorem hagakure_floor (e : Env) : hagakure e.floor = hagakure e := rfl

theorem ikishoten_floor (e : Env) : ikishoten e.floor = ikishoten e := rfl

theorem job_floor (e : Env) (h2 : e.pos ≠ 2) :
    job e.floor = job e := by
  simp only [job, auto_floor, enpi_floor, fuko_floor, gekko_floor, gyofu_floor, hagakure_floor,
    hakaze_floor, higanbana_floor, hissatsu_guren_floor, hissatsu_gyoten_floor, hissatsu_kyuten_floor,
    hissatsu_senei_floor, hissatsu_shinten_floor, hissatsu_yaten_floor, ikishoten_floor, jinpu_floor,
    kaeshi_goken_floor, kaeshi_higanbana_floor e h2, kaeshi_namikiri_floor, kaeshi_setsugekka_floor,
    kasha_floor, mangetsu_floor, meikyo_shisui_floor, midare_setsugekka_floor, ogi_namikiri_floor,
    oka_floor, shifu_floor, shoha_floor, shoha_ii_floor e h2, tendo_goken_floor,
    tendo_kaeshi_goken_floor, tendo_kaeshi_setsugekka_floor, tendo_setsugekka_floor, tengentsu_floor,
    tenka_goken_floor, true_north_floor, yukikaze_floor, zanshin_floor]

end Ama.GameData.Sam
