import Verif.Lemmas.Library
import Verif.Examples.Rotation

/-!
# C54: the skill library
-/

namespace Ama

open Spec SkillLibrary

variable {ops : List LibOp} {lib lib' : SkillLibrary} {job name : String} {s : Skill}

theorem LibOf.holds (h : LibOf ops lib) : ∃ c, Holds c lib ∧ c.job = jobAfter none ops ∧
    c.skills = skillsAdded none ops ∧ c.resources = resourcesAdded none ops ∧
    c.breakers = breakersAdded none ops ∧ c.priorities = prioritiesSet none ops ∧
    ∀ j, j ∈ c.jobs ↔ ∃ op ∈ ops, op.job none = some j := by
  obtain ⟨v, n, h⟩ := h
  obtain ⟨c, h1, h2, h3, h4, h5, h6, h7⟩ := holds_runs (holds_init v n) h
  exact ⟨c, h1, h2, by simpa using h3, by simpa using h4, by simpa using h5, by simpa using h6,
    fun j => by simpa using h7 j⟩

/-- Sample calls: two job classes, two skills of the same name. -/
def Ex.libOps : List LibOp :=
  [.setJob "NIN", .addSkill { name := "Hit", hasAoe := true }, .addSkill { name := "Kick" },
   .addAll { jobClass := "MNK", priority := some ["Fire"], skills := [{ name := "Hit" }],
             resources := [("Chi", { maxValue := 5 })] },
   .addComboBreaker 1 [2, 3], .addResource "Chi" { maxValue := 10 }]

/-- C54: looking up a skill gives what was added under that job class with that name, and nothing
else. -/
theorem C54_get_skill (h : LibOf ops lib) :
    lib.getSkill name job = .ok s ↔ (job, s) ∈ skillsAdded none ops ∧ s.name = name := by
  obtain ⟨c, hc, _, h3, _⟩ := LibOf.holds h
  unfold getSkill
  rw [Py.bind_eq_ok, ← h3]
  constructor
  · rintro ⟨d, h1, h2⟩
    exact (hc.skills job d name s (Dict.get_ok.1 h1)).1 (Dict.get_ok.1 h2)
  · rintro ⟨h1, h2⟩
    obtain ⟨d, hd⟩ := (hc.skillJobs job).2 (hc.skillsIn job s h1)
    exact ⟨d, Dict.get_ok.2 hd, Dict.get_ok.2 ((hc.skills job d name s hd).2 ⟨h1, h2⟩)⟩

/-- C54: any other lookup raises `KeyError`. -/
theorem C54_unknown (h : LibOf ops lib) :
    lib.getSkill name job = .error .keyError ↔
      ∀ s, (job, s) ∈ skillsAdded none ops → s.name ≠ name := by
  constructor
  · intro h1 s hs hn
    rw [(C54_get_skill h).2 ⟨hs, hn⟩] at h1
    cases h1
  · intro h1
    cases hr : lib.getSkill name job with
    | ok s =>
      obtain ⟨h2, h3⟩ := (C54_get_skill h).1 hr
      exact absurd h3 (h1 s h2)
    | error e =>
      unfold getSkill at hr
      rcases Py.bind_eq_error.1 hr with hr | ⟨d, _, hr⟩
      · rw [(Dict.get_error.1 hr).1]
      · rw [(Dict.get_error.1 hr).1]

/-- C54: a skill stays as added whatever is called later. -/
theorem C54_kept {ops' : List LibOp} (h : LibOf ops lib) (h' : LibOf (ops ++ ops') lib')
    (hs : lib.getSkill name job = .ok s) : lib'.getSkill name job = .ok s := by
  obtain ⟨h1, h2⟩ := (C54_get_skill h).1 hs
  refine (C54_get_skill h').2 ⟨?_, h2⟩
  have : ∀ (ops : List LibOp) (j : Option String),
      skillsAdded j (ops ++ ops') = skillsAdded j ops ++ skillsAdded (jobAfter j ops) ops' := by
    intro ops
    induction ops with
    | nil => intro j; simp [skillsAdded, jobAfter]
    | cons op ops ih =>
      intro j
      simp only [List.cons_append, skillsAdded, ih]
      simp [jobAfter]
  rw [this]
  exact List.mem_append_left _ h1

/-- C54: no name is added twice under a job class, and trying to raises `RuntimeError`. -/
theorem C54_duplicates (h : LibOf ops lib) :
    (∀ s s', (job, s) ∈ skillsAdded none ops → (job, s') ∈ skillsAdded none ops → s.name = s'.name →
      s = s') ∧
    (lib.addSkill s = .error .runtimeError ↔
      ∃ j s', jobAfter none ops = some j ∧ (j, s') ∈ skillsAdded none ops ∧ s'.name = s.name) ∧
    (lib.addSkill s = .error .keyError ↔ jobAfter none ops = none) := by
  refine ⟨?_, ?_⟩
  · intro s s' hs hs' hn
    have h1 := (C54_get_skill h).2 ⟨hs, rfl⟩
    have h2 := (C54_get_skill h).2 ⟨hs', hn.symm⟩
    rw [h1] at h2
    cases h2
    rfl
  · obtain ⟨c, hc, h2, h3, _⟩ := LibOf.holds h
    unfold addSkill
    rw [← h2, ← h3]
    rcases holds_current hc lib.skills hc.skillJobs with ⟨hj, he⟩ | ⟨j, x, hj, hjobs, hx, he⟩
    · rw [he, hj]
      simp
    · rw [he, hj]
      simp only [Py.ok_bind, Option.some.injEq, reduceCtorEq, iff_false]
      split_ifs with hm
      · simp only [true_iff, reduceCtorEq]
        refine ⟨?_, by simp⟩
        obtain ⟨s', hs'⟩ := Option.isSome_iff_exists.1 hm
        obtain ⟨h4, h5⟩ := (hc.skills j x s.name s' hx).1 hs'
        exact ⟨j, s', rfl, h4, h5⟩
      · simp only [Py.pure_eq, reduceCtorEq, false_iff, not_false_eq_true, and_true]
        rintro ⟨j', s', rfl, h4, h5⟩
        have := (hc.skills j x s.name s' hx).2 ⟨h4, h5⟩
        exact hm (by unfold Dict.mem; rw [this]; rfl)

/-- C54: the job classes are those that were entered, and `has_skill` says whether a lookup will
succeed (raising `KeyError` for an unknown job class). -/
theorem C54_jobs (h : LibOf ops lib) :
    (lib.hasJobClass job = true ↔ ∃ op ∈ ops, op.job none = some job) ∧
    (job ∈ lib.getJobs ↔ ∃ op ∈ ops, op.job none = some job) ∧
    (lib.hasSkill name job = .ok true ↔ ∃ s, lib.getSkill name job = .ok s) ∧
    (lib.hasSkill name job = .error .keyError ↔ lib.hasJobClass job = false) := by
  obtain ⟨c, hc, _, _, _, _, _, hj⟩ := LibOf.holds h
  have key : lib.hasJobClass job = true ↔ ∃ d, Dict.get? lib.skills job = some d := by
    unfold hasJobClass Dict.mem
    exact Option.isSome_iff_exists
  refine ⟨by rw [key, hc.skillJobs, hj], ?_, ?_, ?_⟩
  · unfold getJobs
    rw [← Dict.get?_isSome, Option.isSome_iff_exists, hc.skillJobs, hj]
  · unfold hasSkill getSkill
    cases hg : Dict.get lib.skills job with
    | error e => simp
    | ok d =>
      simp only [Py.ok_bind, Py.pure_eq, Except.ok.injEq]
      unfold Dict.mem
      rw [Option.isSome_iff_exists]
      simp only [Dict.get_ok]
  · unfold hasSkill
    cases hg : Dict.get lib.skills job with
    | error e =>
      obtain ⟨h1, h2⟩ := Dict.get_error.1 hg
      subst h1
      simp only [Py.error_bind, true_iff]
      unfold hasJobClass Dict.mem
      rw [Dict.get?_eq_none.2 h2]
      rfl
    | ok d =>
      have := Dict.get_ok.1 hg
      simp only [Py.ok_bind, Py.pure_eq, reduceCtorEq, false_iff]
      unfold hasJobClass Dict.mem
      rw [this]
      simp

/-- C54 (settings): for a known job class, resources, combo breakers and the priority are the last ones
set for it. -/
theorem C54_settings (h : LibOf ops lib) (hj : lib.hasJobClass job = true) :
    (∃ d, lib.getAllResourceSettings job = .ok d ∧ ∀ n, Dict.get? d n =
      (lastWith (fun r => decide (r.1 = job ∧ r.2.1 = n)) (resourcesAdded none ops)).map (·.2.2)) ∧
    (∃ d, lib.getAllComboBreakers job = .ok d ∧ ∀ g, Dict.get? d g =
      (lastWith (fun r => decide (r.1 = job ∧ r.2.1 = g)) (breakersAdded none ops)).map (·.2.2)) ∧
    lib.getStatusEffectPriority job =
      .ok (((lastWith (fun r => decide (r.1 = job)) (prioritiesSet none ops)).map (·.2)).getD []) := by
  obtain ⟨c, hc, _, _, h4, h5, h6, _⟩ := LibOf.holds h
  have hjob : job ∈ c.jobs := (hc.skillJobs job).1 (Option.isSome_iff_exists.1 hj)
  obtain ⟨r, hr⟩ := (hc.resourceJobs job).2 hjob
  obtain ⟨b, hb⟩ := (hc.breakerJobs job).2 hjob
  obtain ⟨p, hp⟩ := (hc.priorityJobs job).2 hjob
  refine ⟨⟨r, Dict.get_ok.2 hr, fun n => ?_⟩, ⟨b, Dict.get_ok.2 hb, fun g => ?_⟩, ?_⟩
  · rw [← h4]; exact hc.resources job r n hr
  · rw [← h5]; exact hc.breakers job b g hb
  · rw [← h6, ← hc.priorities job p hp]; exact Dict.get_ok.2 hp

example : ∃ lib, LibOf Ex.libOps lib ∧ lib.getSkill "Hit" "NIN" = .ok { name := "Hit", hasAoe := true } ∧
    lib.getSkill "Hit" "MNK" = .ok { name := "Hit" } ∧ lib.getSkill "Kick" "MNK" = .error .keyError ∧
    lib.addSkill { name := "Hit" } = .error .runtimeError ∧
    lib.hasJobClass "MNK" = true ∧
    lib.getAllResourceSettings "MNK" = .ok [("Chi", { maxValue := 10 })] := by
  obtain ⟨lib, h1, h2⟩ := Ex.ok_of (x := Ex.libOps.foldlM LibOp.run {}) (P := fun lib =>
    decide (lib.getSkill "Hit" "NIN" = .ok { name := "Hit", hasAoe := true } ∧
    lib.getSkill "Hit" "MNK" = .ok { name := "Hit" } ∧ lib.getSkill "Kick" "MNK" = .error .keyError ∧
    lib.addSkill { name := "Hit" } = .error .runtimeError ∧
    lib.hasJobClass "MNK" = true ∧
    lib.getAllResourceSettings "MNK" = .ok [("Chi", { maxValue := 10 })])) (by decide +kernel)
  exact ⟨lib, ⟨"", 100, h1⟩, of_decide_eq_true h2⟩

end Ama
