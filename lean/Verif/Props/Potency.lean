import Verif.Lemmas.GameData.Fair
import Verif.Props.GameData

/-!
# Missing a combo or a positional (C111)
-/

namespace Ama

open Spec GameData SkillLibrary

variable {version : String} {level : ℕ} {lib : SkillLibrary}

/-- C111: missing the combo or the positional never raises what a skill of a shipped library announces, on its first
target and whatever other conditions hold.  Partial: not for Snap Punch of the Monk under Coeurl's Fury, see
`C111_snap_punch_refuted`. -/
theorem C111_missed_partial (h : createSkillLibrary version level = .ok lib) {name job : String} {s : Skill}
    (hs : lib.getSkill name job = .ok s) {c : String} (hc : c = "No Combo" ∨ c = "No Positional")
    {m m' : SkillModifier} (hm : m'.withCondition = insert c m.withCondition)
    (ht : ∀ n, targetCond n ∉ m.withCondition)
    (hx : ¬ (name = "Snap Punch" ∧ "Coeurl's Fury" ∈ m.withCondition)) {p p' : ℚ}
    (hp : announced s m = .ok p) (hp' : announced s m' = .ok p') : p' ≤ p := by
  obtain ⟨cs, base, ws, hl⟩ := library_of h
  obtain ⟨r, hr, hf⟩ := hl.fair (good_of h) hs
  have hn : r.name = name := (mkSkill_name hr).symm.trans (hl.skill hs).1
  refine fair_sound (by rcases hc with rfl | rfl <;> simp [missed]) hf hr hm ?_ hp hp'
  have htc : ∀ a ∈ targetConds, a ∉ m.withCondition := by
    intro a ha
    obtain ⟨n, _, rfl⟩ := List.mem_map.1 ha
    exact ht n
  intro a ha
  unfold exceptions at ha
  split_ifs at ha with hsp
  · rcases List.mem_cons.1 ha with rfl | ha
    · exact fun hmem => hx ⟨hn ▸ hsp, hmem⟩
    · exact htc a ha
  · exact htc a ha

/-- The Dragoon's Chaotic Spring, pressed without the positional, in and out of combo. -/
example : ∃ lib s, createSkillLibrary "7.05" 100 = .ok lib ∧ lib.getSkill "Chaotic Spring" "DRG" = .ok s ∧
    ∃ p p', announced s { withCondition := {"No Positional"} } = .ok p ∧
      announced s { withCondition := {"No Combo", "No Positional"} } = .ok p' ∧ p' < p := by
  obtain ⟨lib, s, h, hs, hp⟩ := Ex.shipped (version := "7.05") (level := 100) (name := "Chaotic Spring")
    (p := fun s => match announced s { withCondition := {"No Positional"} },
        announced s { withCondition := {"No Combo", "No Positional"} } with
      | .ok a, .ok b => decide (b < a)
      | _, _ => false)
    (by decide +kernel) ((show Drg.job (Env.of "7.05" 100) ∈ _ by simp [jobClasses])) (by decide +kernel)
  refine ⟨lib, s, h, hs, ?_⟩
  split at hp
  · rename_i a b ha hb
    exact ⟨a, b, ha, hb, of_decide_eq_true hp⟩
  · cases hp

/-- C111 fails for Snap Punch of the Monk from 7.0 on at level 90: under Coeurl's Fury it announces 60 more if the
positional is missed. -/
theorem C111_snap_punch_refuted {version : String} {lib : SkillLibrary}
    (h : createSkillLibrary version 90 = .ok lib) (h7 : "7.0" ≤ version) : ∃ s p, lib.getSkill "Snap Punch" "MNK" = .ok s ∧
      announced s { withCondition := {"Coeurl's Fury"} } = .ok p ∧
      announced s { withCondition := {"Coeurl's Fury", "No Positional"} } = .ok (p + 60) := by
  obtain ⟨cs, base, ws, hl⟩ := library_of h
  have hg : Good (Env.of version 90) := good_of h
  have h70 : (Env.of version 90).ge .p70 = true := (Env.of_ge version 90 .p70).trans (decide_eq_true h7)
  have hf : (rawsOf (Mnk.job (Env.of version 90))).any
      (fun r => decide (r.name = "Snap Punch") && gains r) = true := by
    have hlev : (Env.of version 90).level = 90 := Env.of_level _ _
    by_cases h4 : (Env.of version 90).pos = 4
    · refine Mnk.snap_punch_gains _ ?_
      have : Env.of version 90 = ⟨4, 90⟩ := by
        cases he : Env.of version 90
        rw [he] at h4 hlev
        cases h4
        cases hlev
        rfl
      rw [this]
      simp
    · rw [← Mnk.job_floor _ hg.ne2 h4]
      refine Mnk.snap_punch_gains _ ?_
      have := hg.floor7 h70
      have hl90 : (Env.of version 90).floor.level = 90 := hlev
      simp only [listed7, List.mem_cons, List.not_mem_nil, or_false] at this
      rcases this with e | e | e | e | e | e | e | e <;> rw [e] at hl90 ⊢ <;> simp at hl90 ⊢
  obtain ⟨r, s, hp, hm, hs⟩ := hl.fact (Mnk.mem _) hf
  rw [Bool.and_eq_true, decide_eq_true_eq] at hp
  rw [hp.1] at hs
  have h2 := hp.2
  unfold gains at h2
  rw [hm] at h2
  simp only at h2
  split at h2
  · rename_i a b ha hb
    rw [of_decide_eq_true h2] at hb
    exact ⟨s, a, hs, ha, hb⟩
  · cases h2

/-- There are such libraries. -/
example : ∃ lib, createSkillLibrary "7.05" 90 = .ok lib ∧ "7.0" ≤ "7.05" := by
  obtain ⟨lib, h⟩ := (C75_created "7.05" 90).2 (by decide +kernel)
  exact ⟨lib, h, by decide +kernel⟩

end Ama
