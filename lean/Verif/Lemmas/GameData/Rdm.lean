import Verif.Lemmas.GameData.Floor
import Verif.Model.GameData.Rdm

/-!
# The data of RDM for a version between two listed ones

Generated by `tools/floor.py`: method by method, the data for a version is that for the latest listed
version that is not above it.
-/

set_option linter.unnecessarySeqFocus false
set_option linter.unusedSimpArgs false

namespace Ama.GameData.Rdm

theorem attr_rdm_caster_tax_floor (e : Env) : attr_rdm_caster_tax e.floor = attr_rdm_caster_tax e := rfl

theorem get_status_effect_priority_floor (e : Env) : get_status_effect_priority e.floor = get_status_effect_priority e := rfl

theorem get_combo_breakers_floor (e : Env) :
    get_combo_breakers e.floor = get_combo_breakers e := by
  simp only [get_combo_breakers, floor_ge]

theorem get_dualcast_follow_up_floor (e : Env) : get_dualcast_follow_up e.floor = get_dualcast_follow_up e := rfl

theorem auto_floor (e : Env) : auto e.floor = auto e := rfl

theorem riposte_floor (e : Env) :
    riposte e.floor = riposte e := by
  simp only [riposte, getPotency_floor]

theorem corps_a_corps_floor (e : Env) :
    corps_a_corps e.floor = corps_a_corps e := by
  simp only [corps_a_corps, getPotency_floor]

theorem verthunder_ii_floor (e : Env) :
    verthunder_ii e.floor = verthunder_ii e := by
  simp only [verthunder_ii, getPotency_floor, attr_rdm_caster_tax_floor, get_dualcast_follow_up_floor]

theorem veraero_ii_floor (e : Env) :
    veraero_ii e.floor = veraero_ii e := by
  simp only [veraero_ii, getPotency_floor, attr_rdm_caster_tax_floor, get_dualcast_follow_up_floor]

theorem verfire_floor (e : Env) :
    verfire e.floor = verfire e := by
  simp only [verfire, getPotency_floor, attr_rdm_caster_tax_floor, get_dualcast_follow_up_floor]

theorem verstone_floor (e : Env) :
    verstone e.floor = verstone e := by
  simp only [verstone, getPotency_floor, attr_rdm_caster_tax_floor, get_dualcast_follow_up_floor]

theorem zwerchhau_floor (e : Env) :
    zwerchhau e.floor = zwerchhau e := by
  simp only [zwerchhau, getPotency_floor, getPotencyNoCombo_floor]

theorem displacement_floor (e : Env) :
    displacement e.floor = displacement e := by
  simp only [displacement, getPotency_floor]

theorem engagement_floor (e : Env) :
    engagement e.floor = engagement e := by
  simp only [engagement, getPotency_floor]

theorem fleche_floor (e : Env) :
    fleche e.floor = fleche e := by
  simp only [fleche, getPotency_floor]

theorem redoublement_floor (e : Env) :
    redoublement e.floor = redoublement e := by
  simp only [redoublement, getPotency_floor, getPotencyNoCombo_floor]

theorem moulinet_floor (e : Env) :
    moulinet e.floor = moulinet e := by
  simp only [moulinet, getPotency_floor]

theorem contre_sixte_floor (e : Env) :
    contre_sixte e.floor = contre_sixte e := by
  simp only [contre_sixte, getPotency_floor]

theorem embolden_floor (e : Env) :
    embolden e.floor = embolden e := by
  simp only [embolden, getSkillData_floor]

theorem manafication_floor (e : Env) :
    manafication e.floor = manafication e := by
  simp only [manafication, getSkillData_floor]

theorem jolt_ii_floor (e : Env) :
    jolt_ii e.floor = jolt_ii e := by
  simp only [jolt_ii, getPotency_floor, attr_rdm_caster_tax_floor, get_dualcast_follow_up_floor]

theorem jolt_iii_floor (e : Env) :
    jolt_iii e.floor = jolt_iii e := by
  simp only [jolt_iii, floor_lt, getPotency_floor, attr_rdm_caster_tax_floor,
    get_dualcast_follow_up_floor]

theorem impact_floor (e : Env) :
    impact e.floor = impact e := by
  simp only [impact, getSkillData_floor, getPotency_floor, attr_rdm_caster_tax_floor,
    get_dualcast_follow_up_floor]

theorem verflare_floor (e : Env) :
    verflare e.floor = verflare e := by
  simp only [verflare, getPotency_floor]

theorem verholy_floor (e : Env) :
    verholy e.floor = verholy e := by
  simp only [verholy, getPotency_floor]

theorem reprise_floor (e : Env) :
    reprise e.floor = reprise e := by
  simp only [reprise, getPotency_floor]

theorem scorch_floor (e : Env) :
    scorch e.floor = scorch e := by
  simp only [scorch, getPotency_floor]

theorem verthunder_iii_floor (e : Env) :
    verthunder_iii e.floor = verthunder_iii e := by
  simp only [verthunder_iii, getPotency_floor, attr_rdm_caster_tax_floor, get_dualcast_follow_up_floor]

theorem veraero_iii_floor (e : Env) :
    veraero_iii e.floor = veraero_iii e := by
  simp only [veraero_iii, getPotency_floor, attr_rdm_caster_tax_floor, get_dualcast_follow_up_floor]

theorem resolution_floor (e : Env) :
    resolution e.floor = resolution e := by
  simp only [resolution, getPotency_floor]

theorem vice_of_thorns_floor (e : Env) :
    vice_of_thorns e.floor = vice_of_thorns e := by
  simp only [vice_of_thorns, floor_lt, getPotency_floor] <;> rfl

theorem grand_impact_floor (e : Env) :
    grand_impact e.floor = grand_impact e := by
  simp only [grand_impact, floor_lt, getPotency_floor, attr_rdm_caster_tax_floor,
    get_dualcast_follow_up_floor] <;> rfl

theorem prerefulgence_floor (e : Env) :
    prerefulgence e.floor = prerefulgence e := by
  simp only [prerefulgence, floor_lt, getPotency_floor] <;> rfl

theorem enchanted_riposte_floor (e : Env) :
    enchanted_riposte e.floor = enchanted_riposte e := by
  simp only [enchanted_riposte, getPotency_floor]

theorem enchanted_zwerchhau_floor (e : Env) :
    enchanted_zwerchhau e.floor = enchanted_zwerchhau e := by
  simp only [enchanted_zwerchhau, getPotency_floor, getPotencyNoCombo_floor]

theorem enchanted_redoublement_floor (e : Env) :
    enchanted_redoublement e.floor = enchanted_redoublement e := by
  simp only [enchanted_redoublement, getPotency_floor, getPotencyNoCombo_floor]

theorem enchanted_moulinet_floor (e : Env) :
    enchanted_moulinet e.floor = enchanted_moulinet e := by
  simp only [enchanted_moulinet, floor_ge, getPotency_floor]

theorem enchanted_moulinet_deux_floor (e : Env) :
    enchanted_moulinet_deux e.floor = enchanted_moulinet_deux e := by
  simp only [enchanted_moulinet_deux, floor_lt, getPotency_floor]

theorem enchanted_moulinet_trois_floor (e : Env) :
    enchanted_moulinet_trois e.floor = enchanted_moulinet_trois e := by
  simp only [enchanted_moulinet_trois, floor_lt, getPotency_floor]

theorem enchanted_reprise_floor (e : Env) :
    enchanted_reprise e.floor = enchanted_reprise e := by
  simp only [enchanted_reprise, getPotency_floor]

theorem swiftcast_floor (e : Env) : swiftcast e.floor = swiftcast e := rfl

theorem acceleration_floor (e : Env) : acceleration e.floor = acceleration e := rfl

theorem verraise_floor (e : Env) :
    verraise e.floor = verraise e := by
  simp only [verraise, attr_rdm_caster_tax_floor]

theorem vercure_floor (e : Env) :
    vercure e.floor = vercure e := by
  simp only [vercure, attr_rdm_caster_tax_floor]

theorem job_floor (e : Env) :
    job e.floor = job e := by
  simp only [job, attr_rdm_caster_tax_floor, get_status_effect_priority_floor,
    get_combo_breakers_floor, acceleration_floor, auto_floor, contre_sixte_floor, corps_a_corps_floor,
    displacement_floor, embolden_floor, enchanted_moulinet_floor, enchanted_moulinet_deux_floor,
    enchanted_moulinet_trois_floor, enchanted_redoublement_floor, enchanted_reprise_floor,
    enchanted_riposte_floor, enchanted_zwerchhau_floor, engagement_floor, fleche_floor,
    grand_impact_floor, impact_floor, jolt_ii_floor, jolt_iii_floor, manafication_floor,
    moulinet_floor, prerefulgence_floor, redoublement_floor, reprise_floor, resolution_floor,
    riposte_floor, scorch_floor, swiftcast_floor, veraero_ii_floor, veraero_iii_floor, vercure_floor,
    verfire_floor, verflare_floor, verholy_floor, verraise_floor, verstone_floor, verthunder_ii_floor,
    verthunder_iii_floor, vice_of_thorns_floor, zwerchhau_floor]

end Ama.GameData.Rdm
