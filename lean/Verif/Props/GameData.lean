import Verif.Lemmas.GameData.Sharpcast
import Verif.Spec.Builder
import Verif.Spec.Autos

/-!
# The skill library the simulator ships with (C75-C82)
-/

namespace Ama

open Spec GameData SkillLibrary

variable {version : String} {level : ℕ} {lib : SkillLibrary}

/-- For the examples: a named skill of a shipped library, and something to see about it. -/
theorem Ex.shipped {version : String} {level : ℕ} (h : Shipped version level) {j : JobClass}
    (hj : j ∈ jobClasses (Env.of version level)) {name : String} {p : Skill → Bool}
    (hp : (rawsOf j).any (fun r => decide (r.name = name) && match mkSkill r with
      | .ok s => p s
      | .error _ => false) = true) :
    ∃ lib s, createSkillLibrary version level = .ok lib ∧ lib.getSkill name j.jobClass = .ok s ∧ p s = true := by
  obtain ⟨lib, cs, base, ws, h1, hl⟩ := library h
  obtain ⟨r, s, h2, h3, h4⟩ := hl.fact hj hp
  simp only [Bool.and_eq_true, decide_eq_true_eq, h3] at h2
  exact ⟨lib, s, h1, h2.1 ▸ h4, h2.2⟩

/-! ## C75: creating the library -/

/-- C75 (when): `create_skill_library` succeeds just for the versions and levels the data covers. -/
theorem C75_created (version : String) (level : ℕ) :
    (∃ lib, createSkillLibrary version level = .ok lib) ↔ Shipped version level := by
  constructor
  · rintro ⟨lib, h⟩
    exact shipped_iff.2 (good_of h)
  · intro h
    obtain ⟨lib, _, _, _, h1, _⟩ := library h
    exact ⟨lib, h1⟩

example : Shipped "6.55" 90 ∧ Shipped "7.0" 100 ∧ Shipped "7.03" 90 ∧ ¬ Shipped "6.55" 100 ∧ ¬ Shipped "6.5" 90 ∧
    ¬ Shipped "7.1" 80 := by decide +kernel

/-- C75 fails for the default arguments of `create_skill_library`: it raises. -/
theorem C75_defaults_refuted : createSkillLibrary = .error .assertionError := by
  have : (match createSkillLibrary with | .error .assertionError => true | _ => false) = true := by
    decide +kernel
  split at this
  · assumption
  · cases this

/-- C75 (job classes): the library has the nineteen job classes of version 6.55, and Pictomancer and Viper
from 7.0 on. -/
theorem C75_jobs (h : createSkillLibrary version level = .ok lib) (job : String) :
    lib.hasJobClass job = true ↔
      job ∈ ["DRK", "GNB", "PLD", "WAR", "AST", "SCH", "SGE", "WHM", "BRD", "DNC", "MCH", "BLM", "RDM", "SMN",
        "DRG", "MNK", "NIN", "RPR", "SAM"] ∨ ("7.0" ≤ version ∧ job ∈ ["PCT", "VPR"]) := by
  obtain ⟨cs, base, ws, hl⟩ := library_of h
  have key : ∀ (A B : List String) (x y : String) (p : Prop) [Decidable p],
      job ∈ A ++ (if decide p = true then [x] else []) ++ B ++ (if decide p = true then [y] else []) ↔
        job ∈ A ++ B ∨ (p ∧ job ∈ [x, y]) := by
    intro A B x y p _
    by_cases hp : p
    · simp only [hp, decide_true, if_true, List.mem_append, List.mem_cons, List.not_mem_nil, or_false, true_and]
      tauto
    · simp only [hp, decide_false, Bool.false_eq_true, if_false, List.append_nil, false_and, or_false]
  rw [hl.hasJob, jobs_of, Env.of_ge]
  exact key ["DRK", "GNB", "PLD", "WAR", "AST", "SCH", "SGE", "WHM", "BRD", "DNC", "MCH", "BLM", "RDM", "SMN"]
    ["DRG", "MNK", "NIN", "RPR", "SAM"] "PCT" "VPR" ("7.0" ≤ version)

example : ∃ lib, createSkillLibrary "7.05" 100 = .ok lib ∧ lib.hasJobClass "VPR" = true := by
  obtain ⟨lib, h⟩ := (C75_created "7.05" 100).2 (by decide +kernel)
  exact ⟨lib, h, (C75_jobs h _).2 (Or.inr ⟨by decide +kernel, by simp⟩)⟩

example : ∃ lib, createSkillLibrary "6.55" 90 = .ok lib ∧ lib.hasJobClass "VPR" = false := by
  obtain ⟨lib, h⟩ := (C75_created "6.55" 90).2 (by decide +kernel)
  refine ⟨lib, h, Bool.eq_false_iff.2 fun hj => ?_⟩
  rcases (C75_jobs h _).1 hj with hj | hj
  · exact absurd hj (by decide +kernel)
  · exact absurd hj.1 (by decide +kernel)

/-- C75 (waits): every job class can wait for each time below ten seconds that is a multiple of ten
milliseconds: the wait has no cast time, deals no damage and locks for exactly this time. -/
theorem C75_waits (h : createSkillLibrary version level = .ok lib) {job : String}
    (hj : lib.hasJobClass job = true) {k : ℕ} (hk : k < 1000) :
    ∃ s, lib.getSkill ("Wait " ++ toString (k / 100) ++ "." ++ toString (k / 10 % 10) ++ toString (k % 10) ++ "s")
        job = .ok s ∧ s.isGCD = some false ∧ ∀ m, s.getDamageSpec m = .ok none ∧
      ∃ t, s.getTimingSpec m = .ok (some t) ∧ t.baseCastTime = 0 ∧ t.animationLock = 10 * k := by
  obtain ⟨cs, base, ws, hl⟩ := library_of h
  obtain ⟨c, hc, rfl⟩ := hl.find hj
  have hw : 10 * k ∈ Generic.waits := List.mem_map.2 ⟨k, List.mem_range.2 hk, rfl⟩
  obtain ⟨s, hs, hm⟩ := mapM_mem' hl.waits (List.mem_map.2 ⟨10 * k, hw, rfl⟩)
  have hname : s.name = "Wait " ++ toString (k / 100) ++ "." ++ toString (k / 10 % 10) ++ toString (k % 10) ++
      "s" := by
    rw [mkSkill_name hm]
    show Generic.waitName (10 * k) = _
    unfold Generic.waitName Generic.seconds
    have h1 : 10 * k / 1000 = k / 100 := by omega
    have h2 : 10 * k / 100 = k / 10 := by omega
    have h3 : 10 * k / 10 = k := by omega
    rw [h1, h2, h3]
    have : SimConsts.WAIT_PREFIX ++ " " = "Wait " := by decide +kernel
    rw [this]
    simp only [String.append_assoc]
  refine ⟨s, (hl.made.skills _ _ _).2 ⟨c, hc, rfl, hname, Or.inr (Or.inl (List.mem_append_right _ hs))⟩, ?_⟩
  unfold mkSkill at hm
  obtain ⟨d, hd, hm⟩ := Py.bind_eq_ok.1 hm
  cases hm
  cases hd
  refine ⟨rfl, fun m => ⟨rfl, _, rfl, rfl, ?_⟩⟩
  push_cast
  rfl

example : ∃ lib s, createSkillLibrary "7.05" 100 = .ok lib ∧ lib.getSkill "Wait 2.37s" "SAM" = .ok s := by
  obtain ⟨lib, h⟩ := (C75_created "7.05" 100).2 (by decide +kernel)
  obtain ⟨s, hs, _⟩ := C75_waits h ((C75_jobs h "SAM").2 (Or.inl (by simp))) (k := 237) (by omega)
  have : "Wait " ++ toString (237 / 100) ++ "." ++ toString (237 / 10 % 10) ++ toString (237 % 10) ++ "s" =
    "Wait 2.37s" := by decide +kernel
  rw [this] at hs
  exact ⟨lib, s, h, hs⟩

/-- C75 (others): every job class has its three limit breaks, can die and come back weakened, and has the
potions of the version. -/
theorem C75_generic (h : createSkillLibrary version level = .ok lib) {job : String}
    (hj : lib.hasJobClass job = true) :
    (∀ a ∈ ["LB 1", "LB 2", "LB 3", "Death", "Weakness", "Brink of Death", "Grade 7 Tincture",
      "Grade 8 Tincture"], ∃ s, lib.getSkill a job = .ok s) ∧
    ((∃ s, lib.getSkill "Grade 1 Gemdraught" job = .ok s) ↔ "7.0" ≤ version) ∧
    ((∃ s, lib.getSkill "Grade 2 Gemdraught" job = .ok s) ↔ "7.05" ≤ version) := by
  obtain ⟨cs, base, ws, hl⟩ := library_of h
  have hg := good_of h
  obtain ⟨c, hc, rfl⟩ := hl.find hj
  obtain ⟨j, hjc, hb⟩ := forall₂_mem hl.classes hc
  have hall : c.jobClass ∈ Generic.allJobs := by
    rw [hb.1.job]
    exact (all_checked hg j hjc).2
  have hlb : ∀ a ∈ Generic.lbNames, ∃ s, lib.getSkill a c.jobClass = .ok s := by
    intro a ha
    rw [← lbs_names hall] at ha
    obtain ⟨s, hs, hn⟩ := List.mem_map.1 ha
    exact ⟨s, (hl.made.skills _ _ _).2 ⟨c, hc, rfl, hn, Or.inr (Or.inr hs)⟩⟩
  have hbase : ∀ a ∈ genericsOf (Env.of version level), ∃ s, lib.getSkill a c.jobClass = .ok s := by
    intro a ha
    rw [← hl.base_names hg] at ha
    obtain ⟨s, hs, hn⟩ := List.mem_map.1 ha
    exact ⟨s, (hl.made.skills _ _ _).2 ⟨c, hc, rfl, hn, Or.inr (Or.inl (List.mem_append_left _ hs))⟩⟩
  -- potions are not class skills, waits or limit breaks
  have honly : ∀ a ∈ Generic.baseNames, (∃ s, lib.getSkill a c.jobClass = .ok s) →
      a ∈ genericsOf (Env.of version level) := by
    rintro a ha ⟨s, hs⟩
    obtain ⟨c', hc', hjj, hn, hm⟩ := (hl.made.skills _ _ _).1 hs
    rcases hm with hm | hm | hm
    · obtain ⟨j', hj', hb'⟩ := forall₂_mem hl.classes hc'
      rcases hb'.2 with ⟨n, ho⟩ | ⟨_, _, h0, _⟩
      · exact absurd hn (ownName_base (ho.own s.name (by rw [ho.names]; exact List.mem_map.2 ⟨s, hm, rfl⟩))
          (Or.inl ha))
      · rw [h0] at hm
        cases hm
    · rcases List.mem_append.1 hm with hm | hm
      · rw [← hl.base_names hg, ← hn]
        exact List.mem_map.2 ⟨s, hm, rfl⟩
      · have : s.name ∈ ws.map (·.name) := List.mem_map.2 ⟨s, hm, rfl⟩
        rw [hl.waitNames] at this
        obtain ⟨i, hi, hw⟩ := List.mem_map.1 this
        have hw' := Generic.waits_name hi
        rw [hw, hn] at hw'
        have : ∀ a ∈ Generic.baseNames, a.toList.take 5 ≠ "Wait ".toList := by decide +kernel
        exact absurd hw' (this a ha)
    · have : s.name ∈ (lbsOf c.jobClass).map (·.name) := List.mem_map.2 ⟨s, hm, rfl⟩
      rw [lbs_names hall, hn] at this
      exact absurd ha (lbName_base a this)
  have g1 : "Grade 1 Gemdraught" ∈ genericsOf (Env.of version level) ↔ "7.0" ≤ version := by
    unfold genericsOf
    rw [Env.of_ge, Env.of_ge]
    by_cases h7 : "7.0" ≤ version
    · have : decide (Patch.p70.text ≤ version) = true := decide_eq_true h7
      rw [this]
      simp [h7]
    · have : decide (Patch.p70.text ≤ version) = false := decide_eq_false h7
      rw [this]
      simp only [h7, iff_false]
      split_ifs <;> simp_all
  have g2 : "Grade 2 Gemdraught" ∈ genericsOf (Env.of version level) ↔ "7.05" ≤ version := by
    unfold genericsOf
    rw [Env.of_ge, Env.of_ge]
    by_cases h7 : "7.05" ≤ version
    · have : decide (Patch.p705.text ≤ version) = true := decide_eq_true h7
      rw [this]
      simp [h7]
    · have : decide (Patch.p705.text ≤ version) = false := decide_eq_false h7
      rw [this]
      simp only [h7, iff_false]
      split_ifs <;> simp_all
  refine ⟨fun a ha => ?_, ⟨fun hs => g1.1 (honly _ (by decide) hs), fun hv => hbase _ (g1.2 hv)⟩,
    ⟨fun hs => g2.1 (honly _ (by decide) hs), fun hv => hbase _ (g2.2 hv)⟩⟩
  simp only [List.mem_cons, List.not_mem_nil, or_false] at ha
  rcases ha with rfl | rfl | rfl | rfl | rfl | rfl | rfl | rfl
  · exact hlb _ (by decide)
  · exact hlb _ (by decide)
  · exact hlb _ (by decide)
  all_goals exact hbase _ (by simp [genericsOf])

example : ∃ lib s, createSkillLibrary "7.05" 100 = .ok lib ∧ lib.getSkill "Grade 2 Gemdraught" "SAM" = .ok s := by
  obtain ⟨lib, h⟩ := (C75_created "7.05" 100).2 (by decide +kernel)
  obtain ⟨s, hs⟩ := (C75_generic h ((C75_jobs h "SAM").2 (Or.inl (by simp)))).2.2.2 (by decide +kernel)
  exact ⟨lib, s, h, hs⟩

/-- C75 (auto-attacks): every job class has exactly one auto-attack, and it hits like one.
Partial: not Viper at versions between 7.01 and 7.05, see `C75_viper_refuted`. -/
theorem C75_auto_partial (h : createSkillLibrary version level = .ok lib) {job : String}
    (hj : lib.hasJobClass job = true) (hv : ¬ (job = "VPR" ∧ "7.01" < version ∧ version < "7.05")) :
    ∃ s, (∃ a ∈ ["Auto", "Shot"], lib.getSkill a job = .ok s) ∧ LikeAuto s ∧
      ∀ a ∈ ["Auto", "Shot"], ∀ s', lib.getSkill a job = .ok s' → s' = s := by
  obtain ⟨cs, base, ws, hl⟩ := library_of h
  have hg := good_of h
  obtain ⟨c, hc, rfl⟩ := hl.find hj
  obtain ⟨j, hjc, hb⟩ := forall₂_mem hl.classes hc
  have hall : c.jobClass ∈ Generic.allJobs := by
    rw [hb.1.job]
    exact (all_checked hg j hjc).2
  rcases hb.2 with ⟨n, ho⟩ | ⟨h6, hj6, _⟩
  · obtain ⟨s, hs, hn, hau, huniq⟩ := ho.auto
    refine ⟨s, ⟨s.name, hn, (hl.made.skills _ _ _).2 ⟨c, hc, rfl, rfl, Or.inl hs⟩⟩, hau, fun a ha s' hs' => ?_⟩
    obtain ⟨c', hc', hjj, hn', hm⟩ := (hl.made.skills _ _ _).1 hs'
    have hcc : c' = c := by
      have hnd : (cs.map (·.jobClass)).Nodup := by
        rw [becomes_jobs hl.classes]
        exact jobs_nodup _
      exact List.inj_on_of_nodup_map hnd hc' hc hjj
    subst hcc
    have hna : s'.name ∈ autoNames := hn' ▸ ha
    rcases hm with hm | hm | hm
    · exact huniq s' hm hna
    · rcases List.mem_append.1 hm with hm | hm
      · have h1 : ∀ a ∈ autoNames, a ∉ Generic.baseNames := by decide +kernel
        exact absurd (hl.baseNames s' hm) (h1 _ hna)
      · have : s'.name ∈ ws.map (·.name) := List.mem_map.2 ⟨s', hm, rfl⟩
        rw [hl.waitNames] at this
        obtain ⟨i, hi, hw⟩ := List.mem_map.1 this
        have hw' := Generic.waits_name hi
        rw [hw] at hw'
        have : ∀ a ∈ autoNames, a.toList.take 5 ≠ "Wait ".toList := by decide +kernel
        exact absurd hw' (this _ hna)
    · have : s'.name ∈ (lbsOf c'.jobClass).map (·.name) := List.mem_map.2 ⟨s', hm, rfl⟩
      rw [lbs_names hall] at this
      have h1 : ∀ a ∈ autoNames, a ∉ Generic.lbNames := by decide +kernel
      exact absurd this (h1 _ hna)
  · exfalso
    refine hv ⟨?_, ?_⟩
    · rw [hb.1.job, hj6]
      rfl
    · have h1 := (pos_cases version level .p701).1
      have h2 := Env.of_lt version level .p705
      have e1 : Patch.p701.rank < (Env.of version level).pos := by
        rw [h6]
        decide
      have e2 : (Env.of version level).lt .p705 = true := by
        unfold Env.lt
        rw [h6]
        decide
      rw [h2] at e2
      exact ⟨h1.2 e1, of_decide_eq_true e2⟩

example : ∃ lib s, createSkillLibrary "7.05" 100 = .ok lib ∧ lib.getSkill "Shot" "BRD" = .ok s ∧ LikeAuto s := by
  obtain ⟨lib, s, h, hs, _⟩ := Ex.shipped (version := "7.05") (level := 100) (name := "Shot")
    (p := fun _ => true) (by decide +kernel) (Brd.mem _) (by decide +kernel)
  obtain ⟨s', _, hl, hu⟩ := C75_auto_partial h ((C75_jobs h "BRD").2 (Or.inl (by simp))) (by decide +kernel)
  exact ⟨lib, s, h, hs, hu "Shot" (by simp) s hs ▸ hl⟩

/-- C75 fails for Viper between 7.01 and 7.05: the class is there and cannot even auto-attack. -/
theorem C75_viper_refuted (h : createSkillLibrary version level = .ok lib) (h1 : "7.01" < version)
    (h2 : version < "7.05") : lib.hasJobClass "VPR" = true ∧
      ∀ a ∈ ["Auto", "Shot"], lib.getSkill a "VPR" = .error .keyError := by
  obtain ⟨cs, base, ws, hl⟩ := library_of h
  have hg := good_of h
  have h7 : "7.0" ≤ version := le_of_lt (lt_trans (by decide +kernel) h1)
  have hj : lib.hasJobClass "VPR" = true := (C75_jobs h "VPR").2 (Or.inr ⟨h7, by simp⟩)
  refine ⟨hj, ?_⟩
  have h6 : (Env.of version level).pos = 6 := by
    have e1 := (pos_cases version level .p701).1.1 h1
    have e2 := Env.of_lt version level .p705
    have e3 : (Env.of version level).lt .p705 = true := e2.trans (decide_eq_true h2)
    unfold Env.lt at e3
    have e4 := of_decide_eq_true e3
    have r1 : Patch.p701.rank = 5 := rfl
    have r2 : Patch.p705.rank = 7 := rfl
    omega
  have hraw : ∀ j ∈ jobClasses (Env.of version level), j.jobClass = "VPR" → rawsOf j = [] := by
    intro j hj' hjj
    have h70 : (Env.of version level).ge .p70 = true := (Env.of_ge version level .p70).trans (decide_eq_true h7)
    have hv := Vpr.mem h70
    rw [job_unique hj' hv hjj]
    obtain ⟨c, _, hb⟩ := forall₂_mem' hl.classes hv
    unfold rawsOf
    have h0 : getRawSkills (Vpr.job (Env.of version level)).skillMethods = .error .valueError := by
      have := hg.lost h6
      obtain ⟨_, _, _, h0⟩ := lost_describes this
      exact h0
    rw [h0]
  have hno : ∀ a ∈ ["Auto", "Shot"], a ∉ Generic.baseNames ∧ a ∉ Generic.lbNames ∧
      a.toList.take 5 ≠ "Wait ".toList := by decide +kernel
  intro a ha
  obtain ⟨n1, n2, n3⟩ := hno a ha
  refine (hl.noSkill hg hj (fun j hj' hjj => ?_) n1 n2 n3).2.1
  rw [hraw j hj' hjj]
  exact List.not_mem_nil

example : ∃ lib, createSkillLibrary "7.03" 100 = .ok lib ∧ "7.01" < "7.03" ∧ "7.03" < "7.05" := by
  obtain ⟨lib, h⟩ := (C75_created "7.03" 100).2 (by decide +kernel)
  exact ⟨lib, h, by decide +kernel, by decide +kernel⟩

/-! ## C76: no lookup raises -/

/-- C76: whatever the conditions, a skill of the library and its follow-ups can say what they do, and the
skill has times. -/
theorem C76_answers (h : createSkillLibrary version level = .ok lib) {name job : String} {s : Skill}
    (hs : lib.getSkill name job = .ok s) :
    s.name = name ∧ Answers s.toSkillCore ∧ (∀ m, ∃ ts, s.getTimingSpec m = .ok (some ts)) ∧
      ∀ m fs, s.getFollowUpSkills m = .ok fs → ∀ f ∈ fs, Answers f.skill := by
  obtain ⟨cs, base, ws, hl⟩ := library_of h
  obtain ⟨hn, x, n, ho, _⟩ := hl.skill hs
  exact ⟨hn, ho.answers, ho.timed, fun m fs hf f hff => (ho.followUp m fs hf f hff).answers⟩

/-- A skill with variants and follow-ups. -/
example : ∃ lib s, createSkillLibrary "7.05" 100 = .ok lib ∧ lib.getSkill "Fire" "BLM" = .ok s ∧
    (5 ≤ s.damageSpec.values.length ∧ s.followUpSkills.values.length = 2) := by
  obtain ⟨lib, s, h, hs, hp⟩ := Ex.shipped (version := "7.05") (level := 100) (name := "Fire")
    (p := fun s => decide (5 ≤ s.damageSpec.values.length ∧ s.followUpSkills.values.length = 2))
    (by decide +kernel) (Blm.mem _) (by decide +kernel)
  exact ⟨lib, s, h, hs, of_decide_eq_true hp⟩

/-- C76 (follow-ups): whatever the conditions, a skill of the library can say what follows it.
Partial: not Automaton Queen, see `C76_automaton_queen_refuted`. -/
theorem C76_followups_partial (h : createSkillLibrary version level = .ok lib) {name job : String} {s : Skill}
    (hs : lib.getSkill name job = .ok s) (hn : ¬ (job = "MCH" ∧ name = "Automaton Queen")) (m : SkillModifier) :
    ∃ fs, s.getFollowUpSkills m = .ok fs := by
  obtain ⟨cs, base, ws, hl⟩ := library_of h
  obtain ⟨hname, x, n, ho, hx, _⟩ := hl.skill hs
  refine ho.followUps ?_ m
  rcases hx with rfl | ⟨rfl, _⟩
  · unfold exempt
    simp only
    split_ifs with hj
    · rw [List.mem_singleton, hname]
      exact fun h => hn ⟨hj, h⟩
    · exact List.not_mem_nil
  · exact List.not_mem_nil

/-- C76 fails for Automaton Queen: used without a gauge condition, the lookup of its follow-ups raises. -/
theorem C76_automaton_queen_refuted (h : createSkillLibrary version level = .ok lib) :
    ∃ s, lib.getSkill "Automaton Queen" "MCH" = .ok s ∧ s.getFollowUpSkills {} = .error .keyError := by
  obtain ⟨cs, base, ws, hl⟩ := library_of h
  have hf := Mch.queen_raises _ (good_of h).floor
  rw [Mch.job_floor] at hf
  obtain ⟨r, s, hp, hm, hs⟩ := hl.fact (Mch.mem _) hf
  simp only [Bool.and_eq_true, decide_eq_true_eq] at hp
  rw [hp.1] at hs
  refine ⟨s, hs, ?_⟩
  have h2 := hp.2
  unfold noAnswer at h2
  rw [hm] at h2
  simp only at h2
  split at h2
  · assumption
  · cases h2

/-! ## C77: the numbers make sense -/

/-- C77: the times, potencies, multipliers and effects of the shipped skills and of their follow-ups are
in the range that they have in the game. -/
theorem C77_sane (h : createSkillLibrary version level = .ok lib) {name job : String} {s : Skill}
    (hs : lib.getSkill name job = .ok s) :
    SaneSkill s.toSkillCore ∧ ∀ m fs, s.getFollowUpSkills m = .ok fs → ∀ f ∈ fs, SaneSkill f.skill := by
  obtain ⟨cs, base, ws, hl⟩ := library_of h
  obtain ⟨hn, x, n, ho, _⟩ := hl.skill hs
  exact ⟨ho.sane, fun m fs hf f hff => (ho.followUp m fs hf f hff).sane⟩

/-- A skill that deals damage, and one that gives a buff. -/
example : ∃ lib s d, createSkillLibrary "7.05" 100 = .ok lib ∧ lib.getSkill "Yukikaze" "SAM" = .ok s ∧
    s.getDamageSpec {} = .ok (some d) ∧ 100 < d.potency := by
  obtain ⟨lib, s, h, hs, hp⟩ := Ex.shipped (version := "7.05") (level := 100) (name := "Yukikaze")
    (p := fun s => match s.getDamageSpec {} with | .ok (some d) => decide (100 < d.potency) | _ => false)
    (by decide +kernel) (Sam.mem _) (by decide +kernel)
  split at hp
  · rename_i d hd
    exact ⟨lib, s, d, h, hs, hd, of_decide_eq_true hp⟩
  · cases hp

example : ∃ lib s e, createSkillLibrary "7.05" 100 = .ok lib ∧ lib.getSkill "Arcane Circle" "RPR" = .ok s ∧
    s.getBuffSpec {} = .ok (some e) ∧ 1 < e.damageMult := by
  obtain ⟨lib, s, h, hs, hp⟩ := Ex.shipped (version := "7.05") (level := 100) (name := "Arcane Circle")
    (p := fun s => match s.getBuffSpec {} with | .ok (some d) => decide (1 < d.damageMult) | _ => false)
    (by decide +kernel) (Rpr.mem _) (by decide +kernel)
  split at hp
  · rename_i d hd
    exact ⟨lib, s, d, h, hs, hd, of_decide_eq_true hp⟩
  · cases hp

/-- C77 (delays): the hypothesis of C26 on the library is true of the shipped library. -/
theorem C77_delays (h : createSkillLibrary version level = .ok lib) : NonnegDelays lib :=
  fun _ _ _ hs _ _ ht => ((C77_sane h hs).1.timing _ _ ht).delay

/-- C77 (attack speed): the hypothesis of C34 and C35 on skills is true of the shipped skills. -/
theorem C77_moderate (h : createSkillLibrary version level = .ok lib) {name job : String} {s : Skill}
    (hs : lib.getSkill name job = .ok s) : Moderate s := by
  intro m e he
  rcases he with he | he
  · exact ((C77_sane h hs).1.buff _ _ he).auto.2.le
  · exact ((C77_sane h hs).1.debuff _ _ he).auto.2.le

/-! ## C78: names of gauges and combo actions -/

/-- C78 (gauges): skills name only gauges that their job class has. -/
theorem C78_gauges (h : createSkillLibrary version level = .ok lib) {name job : String} {s : Skill}
    (hs : lib.getSkill name job = .ok s) :
    KnownGauges lib job s.toSkillCore ∧
      ∀ m fs, s.getFollowUpSkills m = .ok fs → ∀ f ∈ fs, KnownGauges lib job f.skill := by
  obtain ⟨cs, base, ws, hl⟩ := library_of h
  obtain ⟨hn, x, n, ho, _, _, _, hr⟩ := hl.skill hs
  exact ⟨fun m specs hsp r hrr hc => hr _ (ho.gauges m specs hsp r hrr hc),
    fun m fs hf f hff m' specs hsp r hrr hc => hr _ ((ho.followUp m fs hf f hff).gauges m' specs hsp r hrr hc)⟩

/-- A skill that changes a gauge. -/
example : ∃ lib s specs, createSkillLibrary "7.05" 100 = .ok lib ∧ lib.getSkill "Air Anchor" "MCH" = .ok s ∧
    s.getJobResourceSpec {} = .ok specs ∧ specs ≠ [] := by
  obtain ⟨lib, s, h, hs, hp⟩ := Ex.shipped (version := "7.05") (level := 100) (name := "Air Anchor")
    (p := fun s => match s.getJobResourceSpec {} with | .ok (_ :: _) => true | _ => false)
    (by decide +kernel) (Mch.mem _) (by decide +kernel)
  split at hp
  · rename_i d hd
    exact ⟨lib, s, _, h, hs, hd, by simp⟩
  · cases hp

/-- C78 (combos): skills name only combo actions that are skills of their job class.
Partial: not Enchanted Moulinet Trois, see `C78_moulinet_refuted`. -/
theorem C78_combos_partial (h : createSkillLibrary version level = .ok lib) {name job : String} {s : Skill}
    (hs : lib.getSkill name job = .ok s) (hn : ¬ (job = "RDM" ∧ name = "Enchanted Moulinet Trois")) :
    KnownCombos lib job s.toSkillCore := by
  obtain ⟨cs, base, ws, hl⟩ := library_of h
  obtain ⟨hname, x, n, ho, hx, hk, _⟩ := hl.skill hs
  intro m specs hsp c hc a ha
  refine (hk a (ho.combos ?_ m specs hsp c hc a ha)).1
  rcases hx with rfl | ⟨rfl, _⟩
  · unfold exempt
    simp only
    split_ifs with hj
    · rw [List.mem_singleton]
      exact fun h => hn ⟨hj, hname.symm.trans h⟩
    · exact List.not_mem_nil
  · exact List.not_mem_nil

/-- A skill that continues a combo. -/
example : ∃ lib s specs, createSkillLibrary "7.05" 100 = .ok lib ∧ lib.getSkill "Jinpu" "SAM" = .ok s ∧
    s.getComboSpec {} = .ok specs ∧ ∃ c ∈ specs, c.comboActions ≠ [] := by
  obtain ⟨lib, s, h, hs, hp⟩ := Ex.shipped (version := "7.05") (level := 100) (name := "Jinpu")
    (p := fun s => match s.getComboSpec {} with
      | .ok l => l.any (fun c => decide (c.comboActions ≠ []))
      | _ => false)
    (by decide +kernel) (Sam.mem _) (by decide +kernel)
  split at hp
  · rename_i d hd
    obtain ⟨c, hc, hcc⟩ := List.any_eq_true.1 hp
    exact ⟨lib, s, _, h, hs, hd, c, hc, of_decide_eq_true hcc⟩
  · cases hp

/-- C78 fails for Enchanted Moulinet Trois: it continues a skill that there is not. -/
theorem C78_moulinet_refuted (h : createSkillLibrary version level = .ok lib) (h7 : "7.0" ≤ version) :
    ∃ s, lib.getSkill "Enchanted Moulinet Trois" "RDM" = .ok s ∧
      (∀ m, ∃ specs, s.getComboSpec m = .ok specs ∧ ∃ c ∈ specs, "Enchanted Deux" ∈ c.comboActions) ∧
      lib.hasSkill "Enchanted Deux" "RDM" = .ok false := by
  obtain ⟨cs, base, ws, hl⟩ := library_of h
  have hg := good_of h
  have h70 : (Env.of version level).ge .p70 = true := (Env.of_ge version level .p70).trans (decide_eq_true h7)
  have hf := Rdm.no_deux _ hg.floor ((floor_ge _ _).trans h70)
  rw [Rdm.job_floor] at hf
  obtain ⟨r, s, hp, hm, hs⟩ := hl.fact (Rdm.mem _) hf.1
  simp only [Bool.and_eq_true, decide_eq_true_eq] at hp
  rw [hp.1] at hs
  have hj : lib.hasJobClass "RDM" = true := (C75_jobs h "RDM").2 (Or.inl (by simp))
  refine ⟨s, hs, fun m => ?_, ?_⟩
  · have h2 := hp.2
    unfold afterDeux at h2
    split at h2
    · rename_i l hl'
      obtain ⟨c, hc, ha⟩ := List.any_eq_true.1 h2
      refine ⟨l, ?_, c, hc, by simpa using ha⟩
      unfold SkillCore.getComboSpec
      rw [mkSkill_combo hm, hl']
      rfl
    · cases h2
  · have hno : "Enchanted Deux" ∉ Generic.baseNames ∧ "Enchanted Deux" ∉ Generic.lbNames ∧
      "Enchanted Deux".toList.take 5 ≠ "Wait ".toList := by decide +kernel
    refine (hl.noSkill hg hj (fun j hj' hjj => ?_) hno.1 hno.2.1 hno.2.2).2.2
    rw [job_unique hj' (Rdm.mem _) hjj]
    have := hf.2
    simpa using this

/-! ## C79: restricted effects -/

/-- C79: an effect restricted to certain skills is given by a job class that performs one of them.
Partial: not Swiftcast of the healers that are not White Mages, see `C79_swiftcast_refuted`, and, at level
90, not Rainbow Bright and Poised for Twinfang. -/
theorem C79_useful_partial (h : createSkillLibrary version level = .ok lib) {name job : String} {s : Skill}
    (hs : lib.getSkill name job = .ok s) (h1 : ¬ (job ∈ ["AST", "SCH", "SGE"] ∧ name = "Swiftcast"))
    (h2 : ¬ (level = 90 ∧ job = "PCT" ∧ name = "Rainbow Bright"))
    (h3 : ¬ (level = 90 ∧ job = "VPR" ∧ name = "Poised for Twinfang")) :
    UsefulEffects lib job s.toSkillCore := by
  obtain ⟨cs, base, ws, hl⟩ := library_of h
  obtain ⟨hname, x, n, ho, hx, hk, hf, _⟩ := hl.skill hs
  intro m e he l hle
  obtain ⟨a, ha, hor⟩ := ho.useful (by
    rcases hx with rfl | ⟨rfl, _⟩
    · unfold exempt
      simp only
      split_ifs with hj hj hj
      · rw [List.mem_singleton]
        exact fun h => h1 ⟨hj, hname.symm.trans h⟩
      · rw [List.mem_singleton]
        exact fun h => h2 ⟨by exact_mod_cast hj.2, hj.1, hname.symm.trans h⟩
      · rw [List.mem_singleton]
        exact fun h => h3 ⟨by exact_mod_cast hj.2, hj.1, hname.symm.trans h⟩
      · exact List.not_mem_nil
    · exact List.not_mem_nil) m e he l hle
  rcases hor with hor | hor
  · exact ⟨a, ha, (hk a hor).2⟩
  · exact ⟨a, ha, hf a hor⟩

/-- An effect restricted to certain skills. -/
example : ∃ lib s e, createSkillLibrary "7.05" 100 = .ok lib ∧ lib.getSkill "Swiftcast" "WHM" = .ok s ∧
    s.getBuffSpec {} = .ok (some e) ∧ e.skillAllowlist.isSome = true := by
  obtain ⟨lib, s, h, hs, hp⟩ := Ex.shipped (version := "7.05") (level := 100) (name := "Swiftcast")
    (p := fun s => match s.getBuffSpec {} with | .ok (some e) => e.skillAllowlist.isSome | _ => false)
    (by decide +kernel) (Whm.mem _) (by decide +kernel)
  split at hp
  · rename_i d hd
    exact ⟨lib, s, d, h, hs, hd, hp⟩
  · cases hp

/-- C79 fails for Swiftcast of Astrologian, Scholar and Sage: it is restricted to skills of the White Mage,
and does nothing for them. -/
theorem C79_swiftcast_refuted (h : createSkillLibrary version level = .ok lib) {job : String}
    (hj : job ∈ ["AST", "SCH", "SGE"]) :
    ∃ s, lib.getSkill "Swiftcast" job = .ok s ∧
      ∀ m, ∃ e l, s.getBuffSpec m = .ok (some e) ∧ e.skillAllowlist = some l ∧ ∀ a ∈ l, ¬ Performs lib job a := by
  obtain ⟨cs, base, ws, hl⟩ := library_of h
  have hg := good_of h
  obtain ⟨j, hj1, hj2, hj3⟩ : ∃ j ∈ jobClasses (Env.of version level), j.jobClass = job ∧
      idleSwiftcast j = true := by
    simp only [List.mem_cons, List.not_mem_nil, or_false] at hj
    rcases hj with rfl | rfl | rfl
    · exact ⟨_, Ast.mem _, rfl, Ast.job_floor _ hg.ne2 ▸ Ast.idle_swiftcast _ hg.floor⟩
    · exact ⟨_, Sch.mem _, rfl, Sch.job_floor _ ▸ Sch.idle_swiftcast _ hg.floor⟩
    · exact ⟨_, Sge.mem _, rfl, Sge.job_floor _ ▸ Sge.idle_swiftcast _ hg.floor⟩
  unfold idleSwiftcast at hj3
  simp only [Bool.and_eq_true, Bool.not_eq_true'] at hj3
  obtain ⟨r, s, hp, hm, hs⟩ := hl.fact hj1 hj3.1
  simp only [Bool.and_eq_true, decide_eq_true_eq] at hp
  rw [hp.1, hj2] at hs
  have hjc : lib.hasJobClass job = true := (C75_jobs h job).2 (Or.inl (by
    simp only [List.mem_cons, List.not_mem_nil, or_false] at hj
    rcases hj with rfl | rfl | rfl <;> simp))
  refine ⟨s, hs, fun m => ?_⟩
  have h2 := hp.2
  unfold forWhm at h2
  split at h2
  · rename_i e he
    obtain ⟨l, hle, hal⟩ := (Option.any_eq_true _ _).1 h2
    refine ⟨e, l, ?_, hle, fun a ha => ?_⟩
    · unfold SkillCore.getBuffSpec
      rw [mkSkill_buff hm, he]
      rfl
    · have hno : ∀ a ∈ ["Glare III", "Holy III"], a ∉ Generic.baseNames ∧ a ∉ Generic.lbNames ∧
        a.toList.take 5 ≠ "Wait ".toList := by decide +kernel
      have ha' : a ∈ ["Glare III", "Holy III"] := by simpa using List.all_eq_true.1 hal a ha
      obtain ⟨n1, n2, n3⟩ := hno a ha'
      refine (hl.noSkill hg hjc (fun j' hj' hjj => ?_) n1 n2 n3).1
      rw [job_unique hj' hj1 (hjj.trans hj2.symm)]
      simp only [List.mem_cons, List.not_mem_nil, or_false] at ha'
      rcases ha' with rfl | rfl
      · simpa using hj3.2.1
      · simpa using hj3.2.2
  · cases h2

/-! ## C80: drop-off -/

/-- C80: of the skills that declare a drop-off, the ones listed in `dropoffLost` deal the same damage to every
target, and all others deal that much less to the targets after the first. -/
theorem C80_dropoff (h : createSkillLibrary version level = .ok lib) {name job : String} {s : Skill}
    (hs : lib.getSkill name job = .ok s) {x : ℚ} (hx : s.aoeDropoff = some x) :
    (name ∉ dropoffLost job → DropsOff s.toSkillCore x) ∧
      (name ∈ dropoffLost job → ∃ d, ∀ m, s.getDamageSpec m = .ok (some d)) := by
  obtain ⟨cs, base, ws, hl⟩ := library_of h
  obtain ⟨hname, x', n, ho, hx', _⟩ := hl.skill hs
  have hd := ho.drop x hx
  rw [hname] at hd
  rcases hx' with rfl | ⟨rfl, hown⟩
  · rcases hd with ⟨h1, h2⟩ | ⟨h1, h2⟩
    · exact ⟨fun _ => h2, fun h3 => absurd h3 h1⟩
    · exact ⟨fun h3 => absurd h1 h3, fun _ => h2⟩
  · rcases hd with ⟨_, h2⟩ | ⟨h1, _⟩
    · exact ⟨fun _ => h2, fun h3 => absurd (lost_own job _ h3) (by rw [hown]; simp)⟩
    · cases h1

/-- A skill that keeps its drop-off. -/
example : ∃ lib s x, createSkillLibrary "7.05" 100 = .ok lib ∧ lib.getSkill "Flare Star" "BLM" = .ok s ∧
    s.aoeDropoff = some x ∧ 0 < x ∧ "Flare Star" ∉ dropoffLost "BLM" := by
  obtain ⟨lib, s, h, hs, hp⟩ := Ex.shipped (version := "7.05") (level := 100) (name := "Flare Star")
    (p := fun s => s.aoeDropoff.any (fun x => decide (0 < x)))
    (by decide +kernel) (Blm.mem _) (by decide +kernel)
  obtain ⟨x, hx, hx0⟩ := (Option.any_eq_true _ _).1 hp
  exact ⟨lib, s, x, h, hs, hx, of_decide_eq_true hx0, by decide +kernel⟩

/-- C80 fails for Foul: it declares a drop-off, and the second target takes the full potency. -/
theorem C80_foul_refuted (h : createSkillLibrary version level = .ok lib) :
    ∃ s x d, lib.getSkill "Foul" "BLM" = .ok s ∧ s.aoeDropoff = some x ∧ 0 < x ∧ 0 < d.potency ∧
      ∀ m, s.getDamageSpec m = .ok (some d) := by
  obtain ⟨cs, base, ws, hl⟩ := library_of h
  have hf := Blm.foul_loses _ (good_of h).floor
  rw [Blm.job_floor] at hf
  obtain ⟨r, s, hp, hm, hs⟩ := hl.fact (Blm.mem _) hf
  simp only [Bool.and_eq_true, decide_eq_true_eq] at hp
  rw [hp.1] at hs
  have h2 := hp.2
  unfold losesDropoff at h2
  rw [hm] at h2
  split at h2
  · rename_i d s' hd hs'
    cases hs'
    simp only [Bool.and_eq_true, decide_eq_true_eq] at h2
    obtain ⟨⟨h3, h4⟩, h5⟩ := h2
    split at h5
    · rename_i spec hsp
      refine ⟨s, d, spec, hs, h3, h4, of_decide_eq_true h5, fun m => ?_⟩
      unfold SkillCore.getDamageSpec
      rw [hsp]
      rfl
    · cases h5
  · cases h2

/-! ## C81: versions between patches -/

/-- C81: two versions after the same patches have the same skills.
Partial: not Monk between 7.0 and 7.01 and not Viper between 7.01 and 7.05, see `C81_monk_refuted` and
`C75_viper_refuted`. -/
theorem C81_between_patches_partial {version' : String} {lib' : SkillLibrary}
    (h : createSkillLibrary version level = .ok lib) (h' : createSkillLibrary version' level = .ok lib')
    (hp : ∀ p ∈ ["7.0", "7.01", "7.05", "7.1"], p ≤ version ↔ p ≤ version') (name job : String)
    (hm : ∀ v ∈ [version, version'], ¬ (job = "MNK" ∧ "7.0" < v ∧ v < "7.01"))
    (hv : ∀ v ∈ [version, version'], ¬ (job = "VPR" ∧ "7.01" < v ∧ v < "7.05")) :
    lib.getSkill name job = lib'.getSkill name job := by
  obtain ⟨cs, base, ws, hl⟩ := library_of h
  obtain ⟨cs', base', ws', hl'⟩ := library_of h'
  have hg := good_of h
  have hg' := good_of h'
  have hpos : ∀ (v : String) (p q : Patch) (n : ℕ), p.rank < n → n < q.rank → (Env.of v level).pos = n →
      p.text < v ∧ v < q.text := by
    intro v p q n h1 h2 h3
    refine ⟨(pos_cases v level p).1.2 (by rw [h3]; exact h1), ?_⟩
    have e2 : (Env.of v level).lt q = true := by
      unfold Env.lt
      rw [h3]
      exact decide_eq_true h2
    rw [Env.of_lt] at e2
    exact of_decide_eq_true e2
  have hM : ∀ v ∈ [version, version'], ¬ (job = "MNK" ∧ (Env.of v level).pos = 4) := fun v hv1 hh =>
    hm v hv1 ⟨hh.1, hpos v .p70 .p701 4 (by decide) (by decide) hh.2⟩
  have hV : ∀ v ∈ [version, version'], ¬ (job = "VPR" ∧ (Env.of v level).pos = 6) := fun v hv1 hh =>
    hv v hv1 ⟨hh.1, hpos v .p701 .p705 6 (by decide) (by decide) hh.2⟩
  have hf : (Env.of version level).floor = (Env.of version' level).floor := by
    refine same_floor hg hg' rfl fun p hpp => ?_
    rw [Env.of_ge, Env.of_ge]
    have : p.text ∈ ["7.0", "7.01", "7.05", "7.1"] := by
      simp only [List.mem_cons, List.not_mem_nil, or_false] at hpp
      rcases hpp with rfl | rfl | rfl | rfl <;> simp [Patch.text]
    rw [decide_eq_decide]
    exact hp _ this
  have one := fun (s : Skill) => same_skills (name := name) (s := s) hg hg' hl hl' hf (hM version (by simp))
    (hM version' (by simp)) (hV version (by simp)) (hV version' (by simp))
  have two := fun (s : Skill) => same_skills (name := name) (s := s) hg' hg hl' hl hf.symm (hM version' (by simp))
    (hM version (by simp)) (hV version' (by simp)) (hV version (by simp))
  cases h1 : lib.getSkill name job with
  | ok s => rw [one s h1]
  | error e =>
    cases h2 : lib'.getSkill name job with
    | ok s =>
      rw [two s h2] at h1
      cases h1
    | error e' => rw [getSkill_error h1, getSkill_error h2]

example : (∃ lib lib', createSkillLibrary "7.05" 100 = .ok lib ∧ createSkillLibrary "7.06" 100 = .ok lib') ∧
    ∀ p ∈ ["7.0", "7.01", "7.05", "7.1"], p ≤ "7.05" ↔ p ≤ "7.06" := by
  obtain ⟨lib, h⟩ := (C75_created "7.05" 100).2 (by decide +kernel)
  obtain ⟨lib', h'⟩ := (C75_created "7.06" 100).2 (by decide +kernel)
  exact ⟨⟨lib, lib', h, h'⟩, by decide +kernel⟩

/-- C81 fails for Monk: Dragon Kick always gives Opo-opo's Fury at version 7.0, and not between 7.0 and 7.01. -/
theorem C81_monk_refuted {version' : String} {lib' : SkillLibrary}
    (h : createSkillLibrary "7.0" level = .ok lib) (h' : createSkillLibrary version' level = .ok lib')
    (h1 : "7.0" < version') (h2 : version' < "7.01") :
    ∃ s s', lib.getSkill "Dragon Kick" "MNK" = .ok s ∧ lib'.getSkill "Dragon Kick" "MNK" = .ok s' ∧
      (∃ fs, s.getFollowUpSkills {} = .ok fs ∧ fs ≠ []) ∧ s'.getFollowUpSkills {} = .ok [] := by
  obtain ⟨cs, base, ws, hl⟩ := library_of h
  obtain ⟨cs', base', ws', hl'⟩ := library_of h'
  have hlev : (level : ℤ) ∈ [90, 100] := by
    have := good_of h
    unfold Good at this
    rw [Env.of_level] at this
    simp only [List.mem_cons, List.not_mem_nil, or_false]
    tauto
  have e3 : Env.of "7.0" level = ⟨3, level⟩ := by
    have : (Env.of "7.0" level).pos = 3 := (pos_cases "7.0" level .p70).2.1 rfl
    rw [← this]
    rfl
  have e4 : Env.of version' level = ⟨4, level⟩ := by
    have : (Env.of version' level).pos = 4 := by
      have e1 := (pos_cases version' level .p70).1.1 h1
      have e3 : (Env.of version' level).lt .p701 = true :=
        (Env.of_lt version' level .p701).trans (decide_eq_true h2)
      unfold Env.lt at e3
      have e4 := of_decide_eq_true e3
      have r1 : Patch.p70.rank = 3 := rfl
      have r2 : Patch.p701.rank = 5 := rfl
      omega
    rw [← this]
    rfl
  obtain ⟨f1, f2⟩ := Mnk.fury level hlev
  rw [← e3] at f1
  rw [← e4] at f2
  obtain ⟨r, s, hp, hmk, hs⟩ := hl.fact (Mnk.mem _) f1
  obtain ⟨r', s', hp', hmk', hs'⟩ := hl'.fact (Mnk.mem _) f2
  simp only [Bool.and_eq_true, decide_eq_true_eq] at hp hp'
  rw [hp.1] at hs
  rw [hp'.1] at hs'
  refine ⟨s, s', hs, hs', ?_, ?_⟩
  · have := hp.2
    unfold followsAlways at this
    split at this
    · rename_i l hl''
      refine ⟨l, ?_, fun h0 => ?_⟩
      · unfold Skill.getFollowUpSkills
        rw [mkSkill_followUps hmk, hl'']
        rfl
      · rw [h0] at this
        cases this
    · cases this
  · have := hp'.2
    unfold followsNot at this
    rw [hmk'] at this
    simp only at this
    split at this
    · assumption
    · cases this

example : ∃ lib lib', createSkillLibrary "7.0" 100 = .ok lib ∧ createSkillLibrary "7.001" 100 = .ok lib' ∧
    "7.0" < "7.001" ∧ "7.001" < "7.01" := by
  obtain ⟨lib, h⟩ := (C75_created "7.0" 100).2 (by decide +kernel)
  obtain ⟨lib', h'⟩ := (C75_created "7.001" 100).2 (by decide +kernel)
  exact ⟨lib, lib', h, h', by decide +kernel, by decide +kernel⟩

/-! ## C82: Sharpcast -/

/-- C82: Sharpcast changes neither the damage nor the times of a Black Mage skill.
Partial: Scathe is meant to be an exception, and Fire should not be one, see `C82_fire_refuted`. -/
theorem C82_sharpcast_partial (h : createSkillLibrary version level = .ok lib) {name : String} {s : Skill}
    (hs : lib.getSkill name "BLM" = .ok s) (h1 : name ≠ "Scathe") (h2 : name ≠ "Fire") {m m' : SkillModifier}
    (hm : m'.withCondition = insert "Sharpcast" m.withCondition) :
    s.getDamageSpec m' = s.getDamageSpec m ∧ s.getTimingSpec m' = s.getTimingSpec m := by
  obtain ⟨cs, base, ws, hl⟩ := library_of h
  exact hl.sharpcast (good_of h) hs h2 h1 hm

example : ∃ lib s, createSkillLibrary "6.55" 90 = .ok lib ∧ lib.getSkill "Fire IV" "BLM" = .ok s := by
  obtain ⟨lib, s, h, hs, _⟩ := Ex.shipped (version := "6.55") (level := 90) (name := "Fire IV")
    (p := fun _ => true) (by decide +kernel) (Blm.mem _) (by decide +kernel)
  exact ⟨lib, s, h, hs⟩

example : ∃ lib, createSkillLibrary "6.55" 90 = .ok lib := (C75_created "6.55" 90).2 (by decide +kernel)

/-- C82 fails for Fire at version 6.55: under three Astral Fire it deals 1.8 times its damage, with Sharpcast in
addition it loses this bonus; under three Umbral Ice it is cast in half the time, with Sharpcast it is not. -/
theorem C82_fire_refuted (h : createSkillLibrary "6.55" 90 = .ok lib) :
    ∃ s d d' t t', lib.getSkill "Fire" "BLM" = .ok s ∧
      s.getDamageSpec { withCondition := {"3 Astral Fire"} } = .ok (some d) ∧
      s.getDamageSpec { withCondition := {"3 Astral Fire", "Sharpcast"} } = .ok (some d') ∧
      d.singleDamageMult = 9 / 5 ∧ d'.singleDamageMult = 1 ∧
      s.getTimingSpec { withCondition := {"3 Umbral Ice"} } = .ok (some t) ∧
      s.getTimingSpec { withCondition := {"3 Umbral Ice", "Sharpcast"} } = .ok (some t') ∧
      t.baseCastTime = 1250 ∧ t'.baseCastTime = 2500 := by
  obtain ⟨cs, base, ws, hl⟩ := library_of h
  obtain ⟨r, s, hp, hm, hs⟩ := hl.fact (Blm.mem _) Blm.fire_sharpcast
  simp only [Bool.and_eq_true, decide_eq_true_eq] at hp
  rw [hp.1] at hs
  have h2 := hp.2
  unfold sharpLoss at h2
  rw [hm] at h2
  simp only [Bool.and_eq_true] at h2
  obtain ⟨⟨⟨a1, a2⟩, a3⟩, a4⟩ := h2
  split at a1 <;> [rename_i d hd; cases a1]
  split at a2 <;> [rename_i d' hd'; cases a2]
  split at a3 <;> [rename_i t ht; cases a3]
  split at a4 <;> [rename_i t' ht'; cases a4]
  exact ⟨s, d, d', t, t', hs, hd, hd', of_decide_eq_true a1, of_decide_eq_true a2, ht, ht', of_decide_eq_true a3,
    of_decide_eq_true a4⟩

end Ama
