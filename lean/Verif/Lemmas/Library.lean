import Verif.Lemmas.Py
import Verif.Spec.Library

/-!
# Lemmas about the skill library
-/

namespace Ama.SkillLibrary

open Spec

/-- What has been put into a library: the job class in force, the job classes seen, and everything
added. -/
structure Contents where
  job : Option String
  jobs : List String
  skills : List (String × Skill)
  resources : List (String × String × JobResourceSettings)
  breakers : List (String × ℤ × List ℤ)
  priorities : List (String × List String)

/-- The library stores these contents. -/
structure Holds (c : Contents) (lib : SkillLibrary) : Prop where
  job : lib.currentJobClass = c.job
  jobIn : ∀ j, c.job = some j → j ∈ c.jobs
  skillJobs : ∀ j, (∃ d, Dict.get? lib.skills j = some d) ↔ j ∈ c.jobs
  resourceJobs : ∀ j, (∃ d, Dict.get? lib.jobResources j = some d) ↔ j ∈ c.jobs
  breakerJobs : ∀ j, (∃ d, Dict.get? lib.comboBreakers j = some d) ↔ j ∈ c.jobs
  priorityJobs : ∀ j, (∃ d, Dict.get? lib.priority j = some d) ↔ j ∈ c.jobs
  skills : ∀ j d n s, Dict.get? lib.skills j = some d →
    (Dict.get? d n = some s ↔ (j, s) ∈ c.skills ∧ s.name = n)
  skillsIn : ∀ j s, (j, s) ∈ c.skills → j ∈ c.jobs
  resources : ∀ j d n, Dict.get? lib.jobResources j = some d →
    Dict.get? d n = (lastWith (fun r => decide (r.1 = j ∧ r.2.1 = n)) c.resources).map (·.2.2)
  resourcesIn : ∀ j n r, (j, n, r) ∈ c.resources → j ∈ c.jobs
  breakers : ∀ j d g, Dict.get? lib.comboBreakers j = some d →
    Dict.get? d g = (lastWith (fun r => decide (r.1 = j ∧ r.2.1 = g)) c.breakers).map (·.2.2)
  breakersIn : ∀ j n r, (j, n, r) ∈ c.breakers → j ∈ c.jobs
  priorities : ∀ j d, Dict.get? lib.priority j = some d →
    d = ((lastWith (fun r => decide (r.1 = j)) c.priorities).map (·.2)).getD []
  prioritiesIn : ∀ j p, (j, p) ∈ c.priorities → j ∈ c.jobs

theorem lastWith_append {α : Type} (p : α → Bool) (l : List α) (a : α) :
    lastWith p (l ++ [a]) = if p a then some a else lastWith p l := by
  unfold lastWith
  rw [List.filter_append]
  by_cases h : p a
  · simp [h]
  · simp [h]

theorem lastWith_none {α : Type} {p : α → Bool} {l : List α} (h : ∀ a ∈ l, p a = false) :
    lastWith p l = none := by
  unfold lastWith
  rw [List.filter_eq_nil_iff.2 (by intro a ha; simp [h a ha])]
  rfl

theorem holds_init (v : String) (n : ℕ) :
    Holds ⟨none, [], [], [], [], []⟩ ({ version := v, level := n } : SkillLibrary) := by
  constructor <;> simp

theorem get?_ensure {ν : Type} (d : Dict String ν) (j k : String) (v : ν) :
    Dict.get? (if Dict.mem d j then d else Dict.set d j v) k =
      if k = j ∧ Dict.get? d j = none then some v else Dict.get? d k := by
  unfold Dict.mem
  by_cases h : (Dict.get? d j).isSome
  · rw [if_pos h, if_neg]
    rintro ⟨_, h'⟩
    simp [h'] at h
  · rw [if_neg h, Dict.get?_set]
    have h' : Dict.get? d j = none := by simpa using h
    by_cases hk : k = j
    · subst hk; simp [h']
    · rw [if_neg (fun h => hk h.symm), if_neg (fun h => hk h.1)]

theorem holds_setJob {c : Contents} {lib : SkillLibrary} (h : Holds c lib) (j : String) :
    Holds { c with job := some j, jobs := j :: c.jobs } (lib.setCurrentJobClass j) := by
  have hk : ∀ {ν : Type} (d : Dict String ν) (v : ν) (k : String),
      (∀ j, (∃ x, Dict.get? d j = some x) ↔ j ∈ c.jobs) →
      ((∃ x, Dict.get? (if Dict.mem d j then d else Dict.set d j v) k = some x) ↔ k ∈ j :: c.jobs) := by
    intro ν d v k hd
    rw [get?_ensure, List.mem_cons]
    by_cases hkj : k = j
    · subst hkj
      simp only [true_and, true_or, iff_true]
      cases hg : Dict.get? d k with
      | none => exact ⟨v, by simp⟩
      | some x => exact ⟨x, by simp⟩
    · rw [if_neg (fun h => hkj h.1), hd k]
      simp [hkj]
  unfold setCurrentJobClass
  refine ⟨rfl, ?_, ?_, ?_, ?_, ?_, ?_, ?_, ?_, ?_, ?_, ?_, ?_, ?_⟩
  · rintro k hk'
    cases hk'
    simp
  · exact fun k => hk _ _ k h.skillJobs
  · exact fun k => hk _ _ k h.resourceJobs
  · exact fun k => hk _ _ k h.breakerJobs
  · exact fun k => hk _ _ k h.priorityJobs
  · intro k d n s hd
    simp only [] at hd
    rw [get?_ensure] at hd
    split_ifs at hd with hc
    · cases hd
      simp only [Dict.get?_nil, reduceCtorEq, false_iff, not_and]
      intro hm
      obtain ⟨x, hx⟩ := (h.skillJobs k).2 (h.skillsIn k s hm)
      rw [hc.1, hc.2] at hx
      cases hx
    · exact h.skills k d n s hd
  · intro k s hm
    exact List.mem_cons_of_mem _ (h.skillsIn k s hm)
  · intro k d n hd
    simp only [] at hd
    rw [get?_ensure] at hd
    split_ifs at hd with hc
    · cases hd
      rw [lastWith_none]
      · rfl
      · rintro ⟨j', n', r⟩ hm
        simp only [decide_eq_false_iff_not, not_and]
        rintro rfl _
        obtain ⟨x, hx⟩ := (h.resourceJobs j').2 (h.resourcesIn _ _ _ hm)
        rw [hc.1, hc.2] at hx
        cases hx
    · exact h.resources k d n hd
  · intro k n r hm
    exact List.mem_cons_of_mem _ (h.resourcesIn k n r hm)
  · intro k d n hd
    simp only [] at hd
    rw [get?_ensure] at hd
    split_ifs at hd with hc
    · cases hd
      rw [lastWith_none]
      · rfl
      · rintro ⟨j', n', r⟩ hm
        simp only [decide_eq_false_iff_not, not_and]
        rintro rfl _
        obtain ⟨x, hx⟩ := (h.breakerJobs j').2 (h.breakersIn _ _ _ hm)
        rw [hc.1, hc.2] at hx
        cases hx
    · exact h.breakers k d n hd
  · intro k n r hm
    exact List.mem_cons_of_mem _ (h.breakersIn k n r hm)
  · intro k d hd
    simp only [] at hd
    rw [get?_ensure] at hd
    split_ifs at hd with hc
    · cases hd
      rw [lastWith_none]
      · rfl
      · rintro ⟨j', r⟩ hm
        simp only [decide_eq_false_iff_not]
        rintro rfl
        obtain ⟨x, hx⟩ := (h.priorityJobs j').2 (h.prioritiesIn _ _ hm)
        rw [hc.1, hc.2] at hx
        cases hx
    · exact h.priorities k d hd
  · intro k r hm
    exact List.mem_cons_of_mem _ (h.prioritiesIn k r hm)

/-- Storing under a job class that is present does not change which are present. -/
theorem jobs_set {ν : Type} {d : Dict String ν} {jobs : List String} {j : String} (v : ν)
    (hj : j ∈ jobs) (hd : ∀ j, (∃ x, Dict.get? d j = some x) ↔ j ∈ jobs) (k : String) :
    (∃ x, Dict.get? (Dict.set d j v) k = some x) ↔ k ∈ jobs := by
  rw [Dict.get?_set]
  by_cases hk : j = k
  · subst hk; simp [hj]
  · rw [if_neg hk, hd]

theorem holds_current {c : Contents} {lib : SkillLibrary} (h : Holds c lib) {ν : Type}
    (d : Dict String ν) (hd : ∀ j, (∃ x, Dict.get? d j = some x) ↔ j ∈ c.jobs) :
    (c.job = none ∧ lib.current d = .error .keyError) ∨
    ∃ j x, c.job = some j ∧ j ∈ c.jobs ∧ Dict.get? d j = some x ∧ lib.current d = .ok (j, x) := by
  unfold current
  rw [h.job]
  cases hj : c.job with
  | none => exact .inl ⟨rfl, rfl⟩
  | some j =>
    right
    obtain ⟨x, hx⟩ := (hd j).2 (h.jobIn j hj)
    refine ⟨j, x, rfl, h.jobIn j hj, hx, ?_⟩
    simp only []
    rw [Dict.get_ok.2 hx]
    rfl

theorem holds_addSkill {c : Contents} {lib lib' : SkillLibrary} (h : Holds c lib) {s : Skill}
    (hr : lib.addSkill s = .ok lib') :
    Holds { c with skills := c.skills ++ c.job.toList.map (fun j => (j, s)) } lib' := by
  unfold addSkill at hr
  rcases holds_current h lib.skills h.skillJobs with ⟨_, he⟩ | ⟨j, x, hj, hjobs, hx, he⟩
  · rw [he] at hr; cases hr
  · rw [he] at hr
    simp only [Py.ok_bind] at hr
    split_ifs at hr with hm
    simp only [Py.pure_eq, Except.ok.injEq] at hr
    subst hr
    rw [hj]
    have hnone : Dict.get? x s.name = none := by simpa [Dict.mem] using hm
    refine ⟨by rw [h.job, hj], ?_, ?_, h.resourceJobs, h.breakerJobs, h.priorityJobs, ?_, ?_,
      h.resources, h.resourcesIn, h.breakers, h.breakersIn, h.priorities, h.prioritiesIn⟩
    · rintro k hk
      cases hk
      exact hjobs
    · exact jobs_set _ hjobs h.skillJobs
    · intro k d n s' hd
      simp only [] at hd
      rw [Dict.get?_set] at hd
      simp only [Option.toList_some, List.map_cons, List.map_nil, List.mem_append, List.mem_cons,
        List.not_mem_nil, or_false, Prod.mk.injEq]
      split_ifs at hd with hk
      · cases hd
        subst hk
        rw [Dict.get?_set]
        split_ifs with hn
        · subst hn
          have := h.skills j x s.name s' hx
          rw [hnone] at this
          simp only [reduceCtorEq, false_iff] at this
          constructor
          · intro hs; cases hs; exact ⟨.inr ⟨rfl, rfl⟩, rfl⟩
          · rintro ⟨h1 | ⟨_, h1⟩, h2⟩
            · exact absurd ⟨h1, h2⟩ this
            · rw [h1]
        · rw [h.skills j x n s' hx]
          constructor
          · rintro ⟨h1, h2⟩; exact ⟨.inl h1, h2⟩
          · rintro ⟨h1 | ⟨_, rfl⟩, h2⟩
            · exact ⟨h1, h2⟩
            · exact absurd h2 hn
      · rw [h.skills k d n s' hd]
        constructor
        · rintro ⟨h1, h2⟩; exact ⟨.inl h1, h2⟩
        · rintro ⟨h1 | ⟨rfl, _⟩, h2⟩
          · exact ⟨h1, h2⟩
          · exact absurd rfl hk
    · intro k s' hm'
      simp only [Option.toList_some, List.map_cons, List.map_nil, List.mem_append, List.mem_cons,
        List.not_mem_nil, or_false, Prod.mk.injEq] at hm'
      rcases hm' with hm' | ⟨rfl, _⟩
      · exact h.skillsIn k s' hm'
      · exact hjobs

/-- One entry more in a table of settings. -/
theorem settings_set {κ ν : Type} [DecidableEq κ] {log : List (String × κ × ν)}
    {dd : Dict String (Dict κ ν)} {j : String} {x : Dict κ ν} {n : κ} {v : ν}
    (hx : Dict.get? dd j = some x)
    (h : ∀ j d n, Dict.get? dd j = some d →
      Dict.get? d n = (lastWith (fun r => decide (r.1 = j ∧ r.2.1 = n)) log).map (·.2.2)) :
    ∀ k d m, Dict.get? (Dict.set dd j (Dict.set x n v)) k = some d →
      Dict.get? d m =
        (lastWith (fun r => decide (r.1 = k ∧ r.2.1 = m)) (log ++ [(j, n, v)])).map (·.2.2) := by
  intro k d m hd
  rw [lastWith_append]
  rw [Dict.get?_set] at hd
  split_ifs at hd with hk
  · cases hd
    subst hk
    rw [Dict.get?_set]
    by_cases hn : n = m
    · subst hn; simp
    · rw [if_neg hn, h j x m hx]
      simp [hn]
  · rw [h k d m hd]
    simp [hk]

theorem holds_addResource {c : Contents} {lib lib' : SkillLibrary} (h : Holds c lib) {n : String}
    {r : JobResourceSettings} (hr : lib.addResource n r = .ok lib') :
    Holds { c with resources := c.resources ++ c.job.toList.map (fun j => (j, n, r)) } lib' := by
  unfold addResource at hr
  rcases holds_current h lib.jobResources h.resourceJobs with ⟨_, he⟩ | ⟨j, x, hj, hjobs, hx, he⟩
  · rw [he] at hr; cases hr
  · rw [he] at hr
    simp only [Py.ok_bind, Py.pure_eq, Except.ok.injEq] at hr
    subst hr
    rw [hj]
    refine ⟨by rw [h.job, hj], ?_, h.skillJobs, ?_, h.breakerJobs, h.priorityJobs, h.skills, h.skillsIn,
      ?_, ?_, h.breakers, h.breakersIn, h.priorities, h.prioritiesIn⟩
    · rintro k hk
      cases hk
      exact hjobs
    · exact jobs_set _ hjobs h.resourceJobs
    · exact settings_set hx h.resources
    · intro k m r' hm
      simp only [Option.toList_some, List.map_cons, List.map_nil, List.mem_append, List.mem_cons,
        List.not_mem_nil, or_false, Prod.mk.injEq] at hm
      rcases hm with hm | ⟨rfl, _⟩
      · exact h.resourcesIn k m r' hm
      · exact hjobs

theorem holds_addComboBreaker {c : Contents} {lib lib' : SkillLibrary} (h : Holds c lib) {n : ℤ}
    {r : List ℤ} (hr : lib.addComboBreaker n r = .ok lib') :
    Holds { c with breakers := c.breakers ++ c.job.toList.map (fun j => (j, n, r)) } lib' := by
  unfold addComboBreaker at hr
  rcases holds_current h lib.comboBreakers h.breakerJobs with ⟨_, he⟩ | ⟨j, x, hj, hjobs, hx, he⟩
  · rw [he] at hr; cases hr
  · rw [he] at hr
    simp only [Py.ok_bind, Py.pure_eq, Except.ok.injEq] at hr
    subst hr
    rw [hj]
    refine ⟨by rw [h.job, hj], ?_, h.skillJobs, h.resourceJobs, ?_, h.priorityJobs, h.skills, h.skillsIn,
      h.resources, h.resourcesIn, ?_, ?_, h.priorities, h.prioritiesIn⟩
    · rintro k hk
      cases hk
      exact hjobs
    · exact jobs_set _ hjobs h.breakerJobs
    · exact settings_set hx h.breakers
    · intro k m r' hm
      simp only [Option.toList_some, List.map_cons, List.map_nil, List.mem_append, List.mem_cons,
        List.not_mem_nil, or_false, Prod.mk.injEq] at hm
      rcases hm with hm | ⟨rfl, _⟩
      · exact h.breakersIn k m r' hm
      · exact hjobs

theorem holds_setPriority {c : Contents} {lib : SkillLibrary} (h : Holds c lib) (p : List String) :
    Holds { c with priorities := c.priorities ++ c.job.toList.map (fun j => (j, p)) }
      (lib.setStatusEffectPriority p) := by
  unfold setStatusEffectPriority
  rw [h.job]
  cases hj : c.job with
  | none =>
    obtain ⟨job, jobs, a, b, d, e⟩ := c
    simp only [] at hj
    subst hj
    simpa using h
  | some j =>
    have hjobs := h.jobIn j hj
    refine ⟨rfl, ?_, h.skillJobs, h.resourceJobs, h.breakerJobs, ?_, h.skills, h.skillsIn,
      h.resources, h.resourcesIn, h.breakers, h.breakersIn, ?_, ?_⟩
    · rintro k hk
      cases hk
      exact hjobs
    · exact jobs_set _ hjobs h.priorityJobs
    · intro k d hd
      simp only [Option.toList_some, List.map_cons, List.map_nil] at hd ⊢
      rw [Dict.get?_set] at hd
      rw [lastWith_append]
      split_ifs at hd with hk
      · cases hd
        simp [hk]
      · rw [h.priorities k d hd]
        simp [hk]
    · intro k r' hm
      simp only [Option.toList_some, List.map_cons, List.map_nil, List.mem_append, List.mem_cons,
        List.not_mem_nil, or_false, Prod.mk.injEq] at hm
      rcases hm with hm | ⟨rfl, _⟩
      · exact h.prioritiesIn k r' hm
      · exact hjobs

/-! ## Whole class descriptions -/

theorem holds_skills {c : Contents} {lib lib' : SkillLibrary} (h : Holds c lib) {j : String}
    (hj : c.job = some j) {l : List Skill} (hr : l.foldlM addSkill lib = .ok lib') :
    Holds { c with skills := c.skills ++ l.map (fun s => (j, s)) } lib' := by
  induction l generalizing c lib with
  | nil => cases hr; simpa using h
  | cons s l ih =>
    rw [Py.foldlM_cons] at hr
    obtain ⟨lib1, h1, h2⟩ := Py.bind_eq_ok.1 hr
    have := ih (holds_addSkill h h1) hj h2
    simpa [hj] using this

theorem holds_breakers {c : Contents} {lib lib' : SkillLibrary} (h : Holds c lib) {j : String}
    (hj : c.job = some j) {l : List (ℤ × List ℤ)}
    (hr : l.foldlM (fun lib b => lib.addComboBreaker b.1 b.2) lib = .ok lib') :
    Holds { c with breakers := c.breakers ++ l.map (fun b => (j, b.1, b.2)) } lib' := by
  induction l generalizing c lib with
  | nil => cases hr; simpa using h
  | cons s l ih =>
    rw [Py.foldlM_cons] at hr
    obtain ⟨lib1, h1, h2⟩ := Py.bind_eq_ok.1 hr
    have := ih (holds_addComboBreaker h h1) hj h2
    simpa [hj] using this

theorem holds_resources {c : Contents} {lib lib' : SkillLibrary} (h : Holds c lib) {j : String}
    (hj : c.job = some j) {l : List (String × JobResourceSettings)}
    (hr : l.foldlM (fun lib r => lib.addResource r.1 r.2) lib = .ok lib') :
    Holds { c with resources := c.resources ++ l.map (fun b => (j, b.1, b.2)) } lib' := by
  induction l generalizing c lib with
  | nil => cases hr; simpa using h
  | cons s l ih =>
    rw [Py.foldlM_cons] at hr
    obtain ⟨lib1, h1, h2⟩ := Py.bind_eq_ok.1 hr
    have := ih (holds_addResource h h1) hj h2
    simpa [hj] using this

/-- The contents after entering a job class with its priority. -/
def Contents.enter (c : Contents) (a : ClassSkills) : Contents :=
  { c with
    job := some a.jobClass
    jobs := a.jobClass :: c.jobs
    priorities := c.priorities ++ a.priority.toList.map (fun p => (a.jobClass, p)) }

/-- What a call adds to the contents. -/
def Contents.after (c : Contents) (op : LibOp) : Contents :=
  { job := op.job c.job
    jobs := (match op with | .setJob j => [j] | .addAll a => [a.jobClass] | _ => []) ++ c.jobs
    skills := c.skills ++ op.skills c.job
    resources := c.resources ++ op.resources c.job
    breakers := c.breakers ++ op.breakers c.job
    priorities := c.priorities ++ op.priorities c.job }

theorem holds_run {c : Contents} {lib lib' : SkillLibrary} (h : Holds c lib) {op : LibOp}
    (hr : op.run lib = .ok lib') : Holds (c.after op) lib' := by
  cases op with
  | setJob j =>
    cases hr
    simpa [Contents.after, LibOp.job, LibOp.skills, LibOp.resources, LibOp.breakers,
      LibOp.priorities] using holds_setJob h j
  | addSkill s =>
    simpa [Contents.after, LibOp.job, LibOp.skills, LibOp.resources, LibOp.breakers,
      LibOp.priorities] using holds_addSkill h hr
  | addResource n r =>
    simpa [Contents.after, LibOp.job, LibOp.skills, LibOp.resources, LibOp.breakers,
      LibOp.priorities] using holds_addResource h hr
  | addComboBreaker g b =>
    simpa [Contents.after, LibOp.job, LibOp.skills, LibOp.resources, LibOp.breakers,
      LibOp.priorities] using holds_addComboBreaker h hr
  | setPriority p =>
    cases hr
    simpa [Contents.after, LibOp.job, LibOp.skills, LibOp.resources, LibOp.breakers,
      LibOp.priorities] using holds_setPriority h p
  | addAll a =>
    simp only [LibOp.run] at hr
    unfold addAllSkillsFrom at hr
    simp only [] at hr
    have h1 := holds_setJob h a.jobClass
    have h2 : Holds (c.enter a)
        (match a.priority with
          | none => lib.setCurrentJobClass a.jobClass
          | some p => (lib.setCurrentJobClass a.jobClass).setStatusEffectPriority p) := by
      cases ha : a.priority with
      | none => simpa [Contents.enter, ha] using h1
      | some p => simpa [Contents.enter, ha] using holds_setPriority h1 p
    have h3 : ∃ lib1, Holds { c.enter a with
        breakers := c.breakers ++ (a.comboBreakers.getD []).map (fun b => (a.jobClass, b.1, b.2)) } lib1 ∧
        (a.skills.foldlM addSkill lib1 >>= fun lib2 =>
          a.resources.foldlM (fun lib r => lib.addResource r.1 r.2) lib2) = .ok lib' := by
      cases hb : a.comboBreakers with
      | none =>
        simp only [hb, Py.pure_eq, Py.ok_bind] at hr
        refine ⟨_, ?_, hr⟩
        simp only [Option.getD_none, List.map_nil, List.append_nil]
        exact h2
      | some bs =>
        simp only [hb] at hr
        obtain ⟨lib1, e1, hr⟩ := Py.bind_eq_ok.1 hr
        exact ⟨lib1, holds_breakers h2 rfl e1, hr⟩
    obtain ⟨lib1, h3, hr⟩ := h3
    obtain ⟨lib2, e2, hr⟩ := Py.bind_eq_ok.1 hr
    have h4 := holds_skills h3 rfl e2
    have h5 := holds_resources h4 rfl hr
    simpa [Contents.after, Contents.enter, LibOp.job, LibOp.skills, LibOp.resources, LibOp.breakers,
      LibOp.priorities] using h5

theorem holds_runs {c : Contents} {lib lib' : SkillLibrary} (h : Holds c lib) {ops : List LibOp}
    (hr : ops.foldlM LibOp.run lib = .ok lib') :
    ∃ c', Holds c' lib' ∧ c'.job = jobAfter c.job ops ∧
      c'.skills = c.skills ++ skillsAdded c.job ops ∧
      c'.resources = c.resources ++ resourcesAdded c.job ops ∧
      c'.breakers = c.breakers ++ breakersAdded c.job ops ∧
      c'.priorities = c.priorities ++ prioritiesSet c.job ops ∧
      ∀ j, j ∈ c'.jobs ↔ j ∈ c.jobs ∨ ∃ op ∈ ops, op.job none = some j := by
  induction ops generalizing c lib with
  | nil =>
    cases hr
    exact ⟨c, h, rfl, by simp [skillsAdded], by simp [resourcesAdded], by simp [breakersAdded],
      by simp [prioritiesSet], by simp⟩
  | cons op ops ih =>
    rw [Py.foldlM_cons] at hr
    obtain ⟨lib1, h1, h2⟩ := Py.bind_eq_ok.1 hr
    obtain ⟨c', g1, g2, g3, g4, g5, g6, g7⟩ := ih (holds_run h h1) h2
    refine ⟨c', g1, ?_, ?_, ?_, ?_, ?_, ?_⟩
    · rw [g2]; rfl
    · rw [g3]; simp [Contents.after, skillsAdded]
    · rw [g4]; simp [Contents.after, resourcesAdded]
    · rw [g5]; simp [Contents.after, breakersAdded]
    · rw [g6]; simp [Contents.after, prioritiesSet]
    · intro j
      rw [g7]
      simp only [List.mem_cons, exists_eq_or_imp]
      cases op <;> simp [Contents.after, LibOp.job, eq_comm] <;> tauto

end Ama.SkillLibrary
