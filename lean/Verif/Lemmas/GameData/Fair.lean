import Verif.Lemmas.GameData.FairMelee
import Verif.Lemmas.GameData.FairMelee2
import Verif.Lemmas.GameData.FairRanged
import Verif.Lemmas.GameData.FairOthers

/-!
# Missing a combo or a positional: all shipped skills
-/

namespace Ama.GameData

open Spec SkillLibrary

variable {version : String} {level : ℕ} {lib : SkillLibrary} {cs : List ClassSkills} {base ws : List Skill}

theorem Mnk.fair_good {e : Env} (h : Good e) : (rawsOf (job e)).all fair = true := by
  by_cases h4 : e.pos = 4
  · refine fair_all e ?_
    obtain ⟨p, l⟩ := e
    simp only at h4
    subst h4
    rcases h with ⟨h1, h2⟩ | ⟨h1, h2, h3⟩
    · cases h1
    · simp only at h3
      rcases h3 with rfl | rfl <;> simp
  · rw [← job_floor e h.ne2 h4]
    exact fair_all e.floor (by simp [h.floor])

/-- All class descriptions pass the check. -/
theorem fair_good {e : Env} (h : Good e) : ∀ j ∈ jobClasses e, (rawsOf j).all fair = true := by
  intro j hj
  have h0 := h.floor
  have h2 := h.ne2
  simp only [jobClasses, List.mem_append, List.mem_cons, List.not_mem_nil, or_false] at hj
  rcases hj with (((hj | hj) | hj) | (hj | hj)) | (hj | hj)
  · rcases hj with rfl | rfl | rfl | rfl
    · exact Drk.job_floor e ▸ Drk.fair_all _ h0
    · exact Gnb.job_floor e ▸ Gnb.fair_all _ h0
    · exact Pld.job_floor e ▸ Pld.fair_all _ h0
    · exact War.job_floor e ▸ War.fair_all _ h0
  · rcases hj with rfl | rfl | rfl | rfl
    · exact Ast.job_floor e h2 ▸ Ast.fair_all _ h0
    · exact Sch.job_floor e ▸ Sch.fair_all _ h0
    · exact Sge.job_floor e ▸ Sge.fair_all _ h0
    · exact Whm.job_floor e ▸ Whm.fair_all _ h0
  · rcases hj with rfl | rfl | rfl
    · exact Brd.job_floor e ▸ Brd.fair_all _ h0
    · exact Dnc.job_floor e ▸ Dnc.fair_all _ h0
    · exact Mch.job_floor e ▸ Mch.fair_all _ h0
  · rcases hj with rfl | rfl | rfl
    · exact Blm.job_floor e ▸ Blm.fair_all _ h0
    · exact Rdm.job_floor e ▸ Rdm.fair_all _ h0
    · exact Smn.job_floor e ▸ Smn.fair_all _ h0
  · split_ifs at hj with h7
    · rw [List.mem_singleton] at hj
      subst hj
      exact Pct.job_floor e ▸ Pct.fair_all _ (h.floor7 h7)
    · cases hj
  · rcases hj with rfl | rfl | rfl | rfl | rfl
    · exact Drg.job_floor e h2 ▸ Drg.fair_all _ h0
    · exact Mnk.fair_good h
    · exact Nin.job_floor e h2 ▸ Nin.fair_all _ h0
    · exact Rpr.job_floor e ▸ Rpr.fair_all _ h0
    · exact Sam.job_floor e h2 ▸ Sam.fair_all _ h0
  · split_ifs at hj with h7
    · rw [List.mem_singleton] at hj
      subst hj
      by_cases h6 : e.pos = 6
      · obtain ⟨c, _, _, h3⟩ := lost_describes (h.lost h6)
        unfold rawsOf
        rw [h3]
        rfl
      · exact Vpr.job_floor e h6 ▸ Vpr.fair_all _ (h.floor7 h7)
    · cases hj

theorem base_unaware : ∀ e ∈ listed,
    ((asRaws (Generic.skillMethods e)).getD []).all (unaware missed) = true := by
  decide +kernel

theorem lb_unaware : ∀ j ∈ Generic.allJobs,
    ((asRaws (match Generic.limitBreaks j with | .ok ms => ms | .error _ => [])).getD []).all
      (unaware missed) = true := by
  decide +kernel

theorem wait_unaware (i : ℕ) : unaware missed (Generic.waitRaw i) = true := rfl

/-- A skill of the library passed the check. -/
theorem Library.fair (hg : Good (Env.of version level)) (h : Library version level lib cs base ws)
    {name job : String} {s : Skill} (hs : lib.getSkill name job = .ok s) :
    ∃ r, mkSkill r = .ok s ∧ GameData.fair r = true := by
  obtain ⟨c, hc, rfl, hn, hm⟩ := (h.made.skills name job s).1 hs
  obtain ⟨j, hj, hb⟩ := forall₂_mem h.classes hc
  have hall : c.jobClass ∈ Generic.allJobs := by
    rw [hb.1.job]
    exact (all_checked hg j hj).2
  have un : ∀ {r : RawSkill}, unaware missed r = true → GameData.fair r = true := fun hr =>
    Bool.or_eq_true_iff.2 (.inl hr)
  rcases hm with hm | hm | hm
  · rcases hb.1.skills with hk | ⟨hk, h0⟩
    · unfold getSkills at hk
      obtain ⟨l, hl, hk⟩ := Py.bind_eq_ok.1 hk
      obtain ⟨r, hr, hmk⟩ := mapM_mem hk hm
      refine ⟨r, hmk, List.all_eq_true.1 (fair_good hg j hj) r ?_⟩
      unfold rawsOf
      rw [hl]
      exact hr
    · rw [h0] at hm
      cases hm
  · rcases List.mem_append.1 hm with hm | hm
    · obtain ⟨rs, h1, h2⟩ := h.methods
      obtain ⟨r, hr, hmk⟩ := mapM_mem h2 hm
      have := base_unaware _ hg.floor
      rw [Generic.skillMethods_floor, h1, asRaws_map] at this
      exact ⟨r, hmk, un (List.all_eq_true.1 this r hr)⟩
    · obtain ⟨r, hr, hmk⟩ := mapM_mem h.waits hm
      obtain ⟨i, hi, rfl⟩ := List.mem_map.1 hr
      exact ⟨_, hmk, un (wait_unaware i)⟩
  · obtain ⟨rs, h1, h2, _⟩ := lbsOf_spec hall
    obtain ⟨r, hr, hmk⟩ := mapM_mem h2 hm
    have := lb_unaware _ hall
    rw [h1] at this
    simp only at this
    rw [asRaws_map] at this
    exact ⟨r, hmk, un (List.all_eq_true.1 this r hr)⟩

/-! ## Snap Punch -/

/-- Under Coeurl's Fury the skill deals more damage if the positional is missed. -/
def gains (r : RawSkill) : Bool :=
  match mkSkill r with
  | .error _ => false
  | .ok s => match announced s { withCondition := {"Coeurl's Fury"} },
      announced s { withCondition := {"Coeurl's Fury", "No Positional"} } with
    | .ok a, .ok b => decide (b = a + 60)
    | _, _ => false

theorem Mnk.snap_punch_gains : ∀ e ∈ ([⟨3, 90⟩, ⟨4, 90⟩, ⟨5, 90⟩, ⟨7, 90⟩, ⟨9, 90⟩] : List Env),
    (rawsOf (job e)).any (fun r => decide (r.name = "Snap Punch") && gains r) = true := by
  decide +kernel

end Ama.GameData
