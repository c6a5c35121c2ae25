import Verif.Lemmas.Library

/-!
# When calls that fill a library succeed
-/

namespace Ama.SkillLibrary

open Spec

/-- The names added, each with its job class. -/
def namesOf (l : List (String × Skill)) : List (String × String) := l.map (fun p => (p.1, p.2.name))

theorem addSkill_ok {c : Contents} {lib : SkillLibrary} (h : Holds c lib) {j : String}
    (hj : c.job = some j) {s : Skill} (hn : (j, s.name) ∉ namesOf c.skills) :
    ∃ lib', lib.addSkill s = .ok lib' := by
  unfold addSkill
  rcases holds_current h lib.skills h.skillJobs with ⟨hj', _⟩ | ⟨j', x, hj', hjobs, hx, he⟩
  · rw [hj] at hj'; cases hj'
  · rw [hj] at hj'
    cases hj'
    rw [he]
    simp only [Py.ok_bind]
    rw [if_neg]
    · exact ⟨_, rfl⟩
    · intro hm
      obtain ⟨s', hs'⟩ := Option.isSome_iff_exists.1 hm
      obtain ⟨h1, h2⟩ := (h.skills j x s.name s' hx).1 hs'
      exact hn (List.mem_map.2 ⟨(j, s'), h1, by simp [h2]⟩)

theorem addSkills_ok {c : Contents} {lib : SkillLibrary} (h : Holds c lib) {j : String}
    (hj : c.job = some j) {l : List Skill}
    (hn : (namesOf (c.skills ++ l.map (fun s => (j, s)))).Nodup) :
    ∃ lib', l.foldlM addSkill lib = .ok lib' := by
  induction l generalizing c lib with
  | nil => exact ⟨lib, rfl⟩
  | cons s l ih =>
    have hs : (j, s.name) ∉ namesOf c.skills := by
      simp only [namesOf, List.map_append, List.map_cons] at hn ⊢
      intro hm
      exact (List.nodup_append.1 hn).2.2 _ hm _ (by simp) rfl
    obtain ⟨lib1, h1⟩ := addSkill_ok h hj hs
    have h2 := holds_addSkill h h1
    rw [hj] at h2
    obtain ⟨lib2, h3⟩ := ih h2 rfl (by simpa [namesOf, hj] using hn)
    exact ⟨lib2, by rw [Py.foldlM_cons, h1]; exact h3⟩

theorem addComboBreakers_ok {c : Contents} {lib : SkillLibrary} (h : Holds c lib) {j : String}
    (hj : c.job = some j) (l : List (ℤ × List ℤ)) :
    ∃ lib', l.foldlM (fun lib b => lib.addComboBreaker b.1 b.2) lib = .ok lib' := by
  induction l generalizing c lib with
  | nil => exact ⟨lib, rfl⟩
  | cons b l ih =>
    have : ∃ lib1, lib.addComboBreaker b.1 b.2 = .ok lib1 := by
      unfold addComboBreaker
      rcases holds_current h lib.comboBreakers h.breakerJobs with ⟨hj', _⟩ | ⟨j', x, _, _, _, he⟩
      · rw [hj] at hj'; cases hj'
      · rw [he]
        exact ⟨_, rfl⟩
    obtain ⟨lib1, h1⟩ := this
    obtain ⟨lib2, h3⟩ := ih (holds_addComboBreaker h h1) hj
    exact ⟨lib2, by rw [Py.foldlM_cons, h1]; exact h3⟩

theorem addResources_ok {c : Contents} {lib : SkillLibrary} (h : Holds c lib) {j : String}
    (hj : c.job = some j) (l : List (String × JobResourceSettings)) :
    ∃ lib', l.foldlM (fun lib b => lib.addResource b.1 b.2) lib = .ok lib' := by
  induction l generalizing c lib with
  | nil => exact ⟨lib, rfl⟩
  | cons b l ih =>
    have : ∃ lib1, lib.addResource b.1 b.2 = .ok lib1 := by
      unfold addResource
      rcases holds_current h lib.jobResources h.resourceJobs with ⟨hj', _⟩ | ⟨j', x, _, _, _, he⟩
      · rw [hj] at hj'; cases hj'
      · rw [he]
        exact ⟨_, rfl⟩
    obtain ⟨lib1, h1⟩ := this
    obtain ⟨lib2, h3⟩ := ih (holds_addResource h h1) hj
    exact ⟨lib2, by rw [Py.foldlM_cons, h1]; exact h3⟩

/-- The library once the job class is in force and its priority set. -/
def entered (lib : SkillLibrary) (a : ClassSkills) : SkillLibrary :=
  match a.priority with
  | none => lib.setCurrentJobClass a.jobClass
  | some p => (lib.setCurrentJobClass a.jobClass).setStatusEffectPriority p

theorem addAll_eq (lib : SkillLibrary) (a : ClassSkills) : lib.addAllSkillsFrom a =
    (a.comboBreakers.getD []).foldlM (fun lib b => lib.addComboBreaker b.1 b.2) (lib.entered a) >>= fun lib =>
    a.skills.foldlM addSkill lib >>= fun lib =>
    a.resources.foldlM (fun lib r => lib.addResource r.1 r.2) lib := by
  unfold addAllSkillsFrom
  cases a.comboBreakers <;> rfl

theorem holds_entered {c : Contents} {lib : SkillLibrary} (h : Holds c lib) (a : ClassSkills) :
    Holds (c.enter a) (lib.entered a) := by
  have h1 := holds_setJob h a.jobClass
  unfold entered
  cases ha : a.priority with
  | none => simpa [Contents.enter, ha] using h1
  | some p => simpa [Contents.enter, ha] using holds_setPriority h1 p

theorem addAll_ok {c : Contents} {lib : SkillLibrary} (h : Holds c lib) {a : ClassSkills}
    (hn : (namesOf (c.skills ++ a.skills.map (fun s => (a.jobClass, s)))).Nodup) :
    ∃ lib', lib.addAllSkillsFrom a = .ok lib' := by
  rw [addAll_eq]
  have h2 := holds_entered h a
  obtain ⟨lib1, e⟩ := addComboBreakers_ok h2 rfl (a.comboBreakers.getD [])
  rw [e, Py.ok_bind]
  have h4 := holds_breakers h2 rfl e
  obtain ⟨lib2, h8⟩ := addSkills_ok h4 rfl (l := a.skills) hn
  rw [h8, Py.ok_bind]
  exact addResources_ok (holds_skills h4 rfl h8) rfl a.resources

/-- Calls succeed if a job class is in force and no name comes twice in a job class. -/
theorem runs_ok {c : Contents} {lib : SkillLibrary} (h : Holds c lib) {ops : List LibOp}
    (hj : c.job = none → ∀ op ∈ ops.head?, op.job none ≠ none)
    (hn : (namesOf (c.skills ++ skillsAdded c.job ops)).Nodup) :
    ∃ lib', ops.foldlM LibOp.run lib = .ok lib' := by
  induction ops generalizing c lib with
  | nil => exact ⟨lib, rfl⟩
  | cons op ops ih =>
    have hn' : (namesOf (c.skills ++ op.skills c.job)).Nodup := by
      unfold namesOf at hn ⊢
      simp only [skillsAdded, ← List.append_assoc] at hn
      rw [List.map_append] at hn
      exact (List.nodup_append.1 hn).1
    have h1 : ∃ lib1, op.run lib = .ok lib1 := by
      cases hc : c.job with
      | none =>
        have := hj hc op (by simp)
        cases op with
        | setJob j => exact ⟨_, rfl⟩
        | addAll a => exact addAll_ok h (by simpa [LibOp.skills] using hn')
        | addSkill s => simp [LibOp.job] at this
        | addResource n r => simp [LibOp.job] at this
        | addComboBreaker n r => simp [LibOp.job] at this
        | setPriority p => simp [LibOp.job] at this
      | some j =>
        cases op with
        | setJob j => exact ⟨_, rfl⟩
        | addAll a => exact addAll_ok h (by simpa [LibOp.skills] using hn')
        | addSkill s =>
          have := addSkills_ok h hc (l := [s]) (by simpa [LibOp.skills, hc] using hn')
          simpa only [LibOp.run, List.foldlM_cons, List.foldlM_nil, bind_pure] using this
        | addResource n r =>
          have := addResources_ok h hc [(n, r)]
          simpa only [LibOp.run, List.foldlM_cons, List.foldlM_nil, bind_pure] using this
        | addComboBreaker n r =>
          have := addComboBreakers_ok h hc [(n, r)]
          simpa only [LibOp.run, List.foldlM_cons, List.foldlM_nil, bind_pure] using this
        | setPriority p => exact ⟨_, rfl⟩
    obtain ⟨lib1, h1⟩ := h1
    obtain ⟨lib2, h2⟩ := ih (holds_run h h1) (by
      intro hno
      exfalso
      cases hc : c.job with
      | none =>
        have := hj hc op (by simp)
        simp only [Contents.after, hc] at hno
        exact this hno
      | some j =>
        simp only [Contents.after, hc] at hno
        cases op <;> simp [LibOp.job] at hno) (by
      simpa [Contents.after, skillsAdded] using hn)
    exact ⟨lib2, by rw [Py.foldlM_cons, h1]; exact h2⟩

/-! ## What stays -/

theorem setJob_keys {lib : SkillLibrary} {j : String} (h : (Dict.keys lib.skills).Nodup) :
    (Dict.keys (lib.setCurrentJobClass j).skills).Nodup := by
  unfold setCurrentJobClass
  simp only
  split_ifs
  · exact h
  · exact Dict.nodup_set h _ _

theorem addSkill_keys {lib lib' : SkillLibrary} {s : Skill} (h : (Dict.keys lib.skills).Nodup)
    (hr : lib.addSkill s = .ok lib') :
    (Dict.keys lib'.skills).Nodup ∧ lib'.version = lib.version ∧ lib'.level = lib.level := by
  unfold addSkill at hr
  obtain ⟨⟨j, d⟩, _, hr⟩ := Py.bind_eq_ok.1 hr
  simp only at hr
  split_ifs at hr
  cases hr
  exact ⟨Dict.nodup_set h _ _, rfl, rfl⟩

/-- The job classes are listed once, and the version and level stay. -/
structure Tidy (version : String) (level : ℕ) (lib : SkillLibrary) : Prop where
  nodup : (Dict.keys lib.skills).Nodup
  version : lib.version = version
  level : lib.level = level

theorem Tidy.setJob {v : String} {n : ℕ} {lib : SkillLibrary} (h : Tidy v n lib) (j : String) :
    Tidy v n (lib.setCurrentJobClass j) := ⟨setJob_keys h.nodup, h.version, h.level⟩

theorem Tidy.addSkill {v : String} {n : ℕ} {lib lib' : SkillLibrary} (h : Tidy v n lib) {s : Skill}
    (hr : lib.addSkill s = .ok lib') : Tidy v n lib' := by
  obtain ⟨h1, h2, h3⟩ := addSkill_keys h.nodup hr
  exact ⟨h1, h2.trans h.version, h3.trans h.level⟩

theorem Tidy.addResource {v : String} {n : ℕ} {lib lib' : SkillLibrary} (h : Tidy v n lib) {a r}
    (hr : lib.addResource a r = .ok lib') : Tidy v n lib' := by
  unfold SkillLibrary.addResource at hr
  obtain ⟨⟨j, d⟩, _, hr⟩ := Py.bind_eq_ok.1 hr
  cases hr
  exact ⟨h.nodup, h.version, h.level⟩

theorem Tidy.addComboBreaker {v : String} {n : ℕ} {lib lib' : SkillLibrary} (h : Tidy v n lib) {a r}
    (hr : lib.addComboBreaker a r = .ok lib') : Tidy v n lib' := by
  unfold SkillLibrary.addComboBreaker at hr
  obtain ⟨⟨j, d⟩, _, hr⟩ := Py.bind_eq_ok.1 hr
  cases hr
  exact ⟨h.nodup, h.version, h.level⟩

theorem Tidy.setPriority {v : String} {n : ℕ} {lib : SkillLibrary} (h : Tidy v n lib) (p : List String) :
    Tidy v n (lib.setStatusEffectPriority p) := by
  unfold setStatusEffectPriority
  split
  · exact h
  · exact ⟨h.nodup, h.version, h.level⟩

theorem Tidy.run {v : String} {n : ℕ} {lib lib' : SkillLibrary} (h : Tidy v n lib) {op : LibOp}
    (hr : op.run lib = .ok lib') : Tidy v n lib' := by
  cases op with
  | setJob j =>
    cases hr
    exact h.setJob j
  | addSkill s => exact h.addSkill hr
  | addResource a r => exact h.addResource hr
  | addComboBreaker a r => exact h.addComboBreaker hr
  | setPriority p =>
    cases hr
    exact h.setPriority p
  | addAll a =>
    simp only [LibOp.run] at hr
    rw [addAll_eq] at hr
    have h2 : Tidy v n (lib.entered a) := by
      unfold entered
      cases a.priority with
      | none => exact h.setJob _
      | some p => exact (h.setJob _).setPriority p
    obtain ⟨lib1, e1, hr⟩ := Py.bind_eq_ok.1 hr
    have h3 : Tidy v n lib1 := Py.foldlM_inv h2 (fun _ _ _ _ ht hb => Tidy.addComboBreaker ht hb) e1
    obtain ⟨lib2, e2, hr⟩ := Py.bind_eq_ok.1 hr
    have h4 := Py.foldlM_inv h3 (fun _ _ _ _ ht hb => Tidy.addSkill ht hb) e2
    exact Py.foldlM_inv h4 (fun _ _ _ _ ht hb => Tidy.addResource ht hb) hr

theorem Tidy.runs {v : String} {n : ℕ} {lib lib' : SkillLibrary} (h : Tidy v n lib) {ops : List LibOp}
    (hr : ops.foldlM LibOp.run lib = .ok lib') : Tidy v n lib' :=
  Py.foldlM_inv h (fun _ _ _ _ ht hb => Tidy.run ht hb) hr

theorem Tidy.start (v : String) (n : ℕ) : Tidy v n { version := v, level := n } :=
  ⟨by simp [Dict.keys], rfl, rfl⟩

end Ama.SkillLibrary
