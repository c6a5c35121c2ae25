import Verif.Lemmas.GameData.Facts
import Verif.Lemmas.TrackerSafe
import Verif.Spec.Shift

/-!
# Which gauges of the shipped library expire
-/

namespace Ama.GameData

open Spec SkillLibrary

namespace Lasts

/-- Only gauges of Black Mage expire; the current job class is `o`. -/
def Ok (o : Option String) (lib : SkillLibrary) : Prop :=
  lib.currentJobClass = o ∧
    ∀ jd ∈ lib.jobResources, jd.1 ≠ "BLM" → ∀ kv ∈ jd.2, kv.2.expiryFromLastGain = ⊤

theorem enter {o : Option String} {lib : SkillLibrary} (h : Ok o lib) (j : String) :
    Ok (some j) (lib.setCurrentJobClass j) := by
  refine ⟨rfl, ?_⟩
  unfold setCurrentJobClass
  simp only
  split_ifs
  · exact h.2
  · intro jd hjd
    rcases Dict.mem_set_imp hjd with hjd | rfl
    · exact h.2 jd hjd
    · intro _ kv hkv
      cases hkv

theorem prio {o : Option String} {lib : SkillLibrary} (h : Ok o lib) (p : List String) :
    Ok o (lib.setStatusEffectPriority p) := by
  unfold setStatusEffectPriority
  split
  · exact h
  · exact h

theorem breaker {o : Option String} {lib lib' : SkillLibrary} (h : Ok o lib) {g : ℤ} {b : List ℤ}
    (hr : lib.addComboBreaker g b = .ok lib') : Ok o lib' := by
  unfold addComboBreaker at hr
  obtain ⟨⟨j, d⟩, -, hr⟩ := Py.bind_eq_ok.1 hr
  rw [← Except.ok.inj hr]
  exact h

theorem skill {o : Option String} {lib lib' : SkillLibrary} (h : Ok o lib) {s : Skill}
    (hr : lib.addSkill s = .ok lib') : Ok o lib' := by
  unfold addSkill at hr
  obtain ⟨⟨j, d⟩, -, hr⟩ := Py.bind_eq_ok.1 hr
  simp only at hr
  split_ifs at hr
  rw [← Except.ok.inj hr]
  exact h

theorem resource {o : Option String} {lib lib' : SkillLibrary} (h : Ok o lib) {r : String × JobResourceSettings}
    (hx : o ≠ some "BLM" → r.2.expiryFromLastGain = ⊤)
    (hr : lib.addResource r.1 r.2 = .ok lib') : Ok o lib' := by
  unfold addResource current at hr
  obtain ⟨⟨j, d⟩, h1, hr⟩ := Py.bind_eq_ok.1 hr
  rw [h.1] at h1
  cases o with
  | none => cases h1
  | some o =>
    obtain ⟨d', h2, h1⟩ := Py.bind_eq_ok.1 h1
    obtain ⟨rfl, rfl⟩ := Prod.mk.inj (Except.ok.inj h1)
    rw [← Except.ok.inj hr]
    refine ⟨h.1, ?_⟩
    intro jd hjd hne
    rcases Dict.mem_set_imp hjd with hjd | rfl
    · exact h.2 jd hjd hne
    · intro kv hkv
      rcases Dict.mem_set_imp hkv with hkv | rfl
      · exact h.2 _ (Dict.mem_of_get? (Dict.get_ok.1 h2)) hne kv hkv
      · exact hx fun h => hne (Option.some.inj h)

theorem each {o : Option String} {lib lib' : SkillLibrary} (h : Ok o lib) {ms : List (Py PyVal)}
    (hr : addEach lib ms = .ok lib') : Ok o lib' := by
  refine Py.foldlM_inv (P := Ok o) h ?_ hr
  intro s m s' _ hs hm
  obtain ⟨v, -, hm⟩ := Py.bind_eq_ok.1 hm
  split at hm
  · obtain ⟨sk, -, hm⟩ := Py.bind_eq_ok.1 hm
    exact skill hs hm
  · cases hm

/-- What one class description adds. -/
theorem job {lib lib' : SkillLibrary} {j : JobClass} (h : ∃ o, Ok o lib)
    (hx : j.jobClass ≠ "BLM" → ∀ res, getResources j.resourceMethods = .ok res →
      ∀ r ∈ res, r.2.expiryFromLastGain = ⊤)
    (hr : addAllSkillsFrom lib j = .ok lib') : ∃ o, Ok o lib' := by
  obtain ⟨o, h⟩ := h
  rw [addAll_form] at hr
  obtain ⟨_, -, hr⟩ := Py.bind_eq_ok.1 hr
  obtain ⟨p, -, hr⟩ := Py.bind_eq_ok.1 hr
  obtain ⟨b, -, hr⟩ := Py.bind_eq_ok.1 hr
  obtain ⟨lib2, h2, hr⟩ := Py.bind_eq_ok.1 hr
  obtain ⟨lib3, h3, hr⟩ := Py.bind_eq_ok.1 hr
  obtain ⟨res, h4, hr⟩ := Py.bind_eq_ok.1 hr
  have k1 : Ok (some j.jobClass) (lib.entered { jobClass := j.jobClass, priority := p }) := by
    unfold entered
    cases p with
    | none => exact enter h _
    | some p => exact prio (enter h _) p
  have k2 : Ok (some j.jobClass) lib2 :=
    Py.foldlM_inv (P := Ok (some j.jobClass)) k1 (fun s b s' _ hs hb => breaker hs hb) h2
  have k3 : Ok (some j.jobClass) lib3 := by
    split at h3
    · rw [← Except.ok.inj h3]; exact k2
    · cases h3
    · exact Py.foldlM_inv (P := Ok (some j.jobClass)) k2 (fun s b s' _ hs hb => skill hs hb) h3
  refine ⟨_, Py.foldlM_inv (P := Ok (some j.jobClass)) k3 (fun s r s' hr' hs hb => resource hs ?_ hb) hr⟩
  exact fun hne => hx (fun h => hne (by rw [h])) res h4 r hr'

/-- All gauges a class description returns last. -/
def allLast (ms : List (Py PyVal)) : Bool :=
  match getResources ms with
  | .ok res => res.all (fun r => decide (r.2.expiryFromLastGain = ⊤))
  | .error _ => true

theorem of_allLast {ms : List (Py PyVal)} (h : allLast ms = true) :
    ∀ res, getResources ms = .ok res → ∀ r ∈ res, r.2.expiryFromLastGain = ⊤ := by
  intro res hr r hrr
  unfold allLast at h
  rw [hr] at h
  exact of_decide_eq_true (List.all_eq_true.1 h r hrr)

/-- The jobs other than Black Mage. -/
theorem tables (e : Env) : ∀ j ∈ jobClasses e, j.jobClass ≠ "BLM" → allLast j.resourceMethods = true := by
  have hast : allLast (Ast.job e).resourceMethods = true := by
    show allLast [Ast.asterisk e, Ast.circle e, Ast.moon e] = true
    unfold Ast.asterisk Ast.circle Ast.moon
    cases e.ge .p70 <;> decide +kernel
  have hbrd : allLast (Brd.job e).resourceMethods = true := by
    show allLast [Brd.armys_coda ⟨1, 90⟩, Brd.mages_coda ⟨1, 90⟩, Brd.repertoire ⟨1, 90⟩,
      Brd.soul_voice ⟨1, 90⟩, Brd.wanderers_coda ⟨1, 90⟩] = true
    decide +kernel
  have hmch : allLast (Mch.job e).resourceMethods = true := by
    show allLast [Mch.battery ⟨1, 90⟩, Mch.gcd ⟨1, 90⟩] = true
    decide +kernel
  have hnin : allLast (Nin.job e).resourceMethods = true := by
    show allLast [Nin.kazematoi e] = true
    unfold Nin.kazematoi
    cases e.lt .p70 <;> decide +kernel
  have hpct : allLast (Pct.job e).resourceMethods = true := by
    show allLast [Pct.hyperphantasia e] = true
    unfold Pct.hyperphantasia
    cases Pct.attr_aetherhue_skills e with
    | error x => rfl
    | ok v =>
      simp only [Py.ok_bind, newJobResourceSettings]
      cases v.asStrs with
      | error x => rfl
      | ok l => rfl
  intro j hj hne
  unfold jobClasses at hj
  simp only [List.mem_append, List.mem_cons, List.not_mem_nil, or_false, List.mem_ite_nil_right] at hj
  rcases hj with ((((rfl | rfl | rfl | rfl) | rfl | rfl | rfl | rfl) | rfl | rfl | rfl) |
    (rfl | rfl | rfl) | ⟨-, rfl⟩) | (rfl | rfl | rfl | rfl | rfl) | ⟨-, rfl⟩
  all_goals first | assumption | rfl | exact absurd rfl hne

end Lasts

/-- In every library that `create_skill_library` makes, only gauges of Black Mage expire. -/
theorem lasting_of {version : String} {level : ℕ} {lib : SkillLibrary}
    (h : createSkillLibrary version level = .ok lib) {job : String} (hj : job ≠ "BLM") : Lasting lib job := by
  unfold createSkillLibrary at h
  obtain ⟨lib1, h1, h⟩ := Py.bind_eq_ok.1 h
  have k1 : ∃ o, Lasts.Ok o lib1 := by
    refine Py.foldlM_inv (P := fun lib => ∃ o, Lasts.Ok o lib) ⟨none, rfl, fun _ h => (List.not_mem_nil h).elim⟩
      (fun s j s' hj hs hr => Lasts.job hs (fun hne => Lasts.of_allLast (Lasts.tables _ j hj hne)) hr) h1
  unfold addGenericSkills at h
  obtain ⟨lib2, h2, h⟩ := Py.bind_eq_ok.1 h
  have k2 : ∃ o, Lasts.Ok o lib2 := by
    refine Py.foldlM_inv (P := fun lib => ∃ o, Lasts.Ok o lib) k1 ?_ h2
    rintro s j s' - ⟨o, hs⟩ hr
    exact ⟨_, Lasts.each (Lasts.enter hs j) hr⟩
  unfold addLimitBreaks at h
  have k3 : ∃ o, Lasts.Ok o lib := by
    refine Py.foldlM_inv (P := fun lib => ∃ o, Lasts.Ok o lib) k2 ?_ h
    rintro s j s' - ⟨o, hs⟩ hr
    obtain ⟨ms, -, hr⟩ := Py.bind_eq_ok.1 hr
    exact ⟨_, Lasts.each (Lasts.enter hs j) hr⟩
  obtain ⟨o, -, k3⟩ := k3
  intro settings hset
  exact k3 (job, settings) (Dict.mem_of_get? (Dict.get_ok.1 hset)) hj

end Ama.GameData
