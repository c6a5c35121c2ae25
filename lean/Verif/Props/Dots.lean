import Verif.Lemmas.BuilderProcess
import Verif.Examples.Rotation

/-!
# Properties of rotations: what a use records, and the ticks of dots (C30, C58)
-/

namespace Ama

open Spec RotationBuilder

variable {rb rb' : RotationBuilder}

/-! ## C30: the tick law -/

/-- C30 (`_partial`: missing are ticks aligned to the server when something happens at a fraction of a
millisecond, where the claim is false, see `C30_aligned_refuted`).  Processing the recorded
applications adds to the queue, for each target and dot, exactly the ticks of its applications: every
3 s from the application (or the first server tick after it), before the end of the dot and before
the next application. -/
theorem C30_ticks_partial {ops : List QueueOp} {out : List Event} {last : Option ℚ}
    (hq : runQueue {} ops = .ok (out, rb.events)) (hw : WholeTicks rb)
    (h : rb.processAllDots last = .ok rb') :
    ∃ evss, rb'.events.q.Perm (evss.flatten ++ rb.events.q) ∧
      List.Forall₂ (fun x evs => DotEvents rb.snapDots last x.1 x.2.1 x.2.2 evs) (recorded rb) evss :=
  processAllDots_ticks (runQueue_spec _ _ _ _ Events.ok_empty hq).1 hw h

/-- C30 when ticks are not aligned to the server, at any times. -/
theorem C30_unaligned {ops : List QueueOp} {out : List Event} {last : Option ℚ}
    (hq : runQueue {} ops = .ok (out, rb.events)) (hs : rb.snapDots = none)
    (h : rb.processAllDots last = .ok rb') :
    ∃ evss, rb'.events.q.Perm (evss.flatten ++ rb.events.q) ∧
      List.Forall₂ (fun x evs => DotEvents none last x.1 x.2.1 x.2.2 evs) (recorded rb) evss := by
  have := C30_ticks_partial hq (fun s h => by rw [hs] at h; cases h) h
  rwa [hs] at this

/-- Two overlapping applications. -/
example : ∃ rb', RotationBuilder.processAllDots
    { Ex.start with qDot := [("Boss", [(Ex.poison, [⟨5000, 5000, 1⟩, ⟨0, 0, 1⟩])])] } none = .ok rb' ∧
    decide (sortBy id (rb'.events.q.map appliedAt) = [0, 3000, 5000, 8000, 11000]) = true :=
  Ex.ok_of (by decide +kernel)

/-- The same with server ticks at 1 s, 4 s, ... -/
example : ∃ rb', RotationBuilder.processAllDots
    { Ex.start with snapDots := some 1
                    qDot := [("Boss", [(Ex.poison, [⟨5000, 5000, 1⟩, ⟨0, 0, 1⟩])])] } none = .ok rb' ∧
    decide (sortBy id (rb'.events.q.map appliedAt) = [1000, 4000, 7000, 10000, 13000]) = true :=
  Ex.ok_of (by decide +kernel)

example : WholeTicks { Ex.start with
    snapDots := some 1
    qDot := [("Boss", [(Ex.poison, [⟨5000, 5000, 1⟩, ⟨0, 0, 1⟩])])] } := by
  rintro s ⟨⟩
  refine ⟨⟨1000, by norm_num⟩, ?_⟩
  intro x hx a ha
  simp only [recorded, List.flatMap_cons, List.map_cons, List.map_nil, List.flatMap_nil,
    List.append_nil, List.mem_singleton] at hx
  subst hx
  simp only [List.mem_cons, List.not_mem_nil, or_false] at ha
  rcases ha with rfl | rfl
  · exact ⟨5000, by norm_num⟩
  · exact ⟨0, by norm_num⟩

/-- C30 is false for aligned ticks and fractions of a millisecond: a dot applied at 0.5 ms with a
server tick at 0.7 ms ticks at time 0, before it is applied. -/
theorem C30_aligned_refuted :
    ∃ rb', RotationBuilder.processAllDots
      { Ex.start with snapDots := some (7 / 10000)
                      qDot := [("Boss", [(Ex.poison, [⟨1 / 2, 1 / 2, 1⟩, ⟨3000, 3000, 1⟩])])] } none =
        .ok rb' ∧
      decide (∃ e ∈ rb'.events.q, e.primary = 1 / 2 ∧ appliedAt e = 0) = true :=
  Ex.ok_of (by decide +kernel)

/-- C30: which applications are recorded.  A use adds, for every dot among its follow-ups and every
target, one application at the time at which the use is applied. -/
theorem C30_recorded {t : ℚ} {skill : Skill} {m : SkillModifier} {tr tr' : Trackers}
    {buffs : StatusEffects} {targets : List String} {ops : List QueueOp} {out : List Event}
    (hq : runQueue {} ops = .ok (out, rb.events))
    (h : rb.processSkill t skill m tr buffs targets = .ok (rb', tr')) :
    ∃ timing cast application fs, skill.getTimingSpec m = .ok timing ∧
      getCastTime rb.stats timing m buffs = .ok cast ∧
      (∀ ts, timing = some ts → application = appliesAt t cast m ts) ∧
      (timing = none → application = t + cast) ∧
      skill.getFollowUpSkills m = .ok fs ∧
      ∀ target f, appsOf rb'.qDot target f = appsOf rb.qDot target f ++
        (fs.zipIdx.filter (fun fi => fi.1.dotDuration.isSome && decide (fi.1 = f))).flatMap
          (fun fi => List.replicate (targets.count target)
            { snapshot := snapshotsAt t cast, application := application, prioMod := fi.2 + 1 }) := by
  obtain ⟨timing, cast, application, fs, h1, h2, h3, h4, h5, _, h7⟩ :=
    processSkill_spec (runQueue_spec _ _ _ _ Events.ok_empty hq).1 h
  exact ⟨timing, cast, application, fs, h1, h2, h3, h4, h5, h7⟩

example : ∃ r, RotationBuilder.processSkill Ex.start 1000 Ex.venom {} Ex.trackers {} ["A", "B"] = .ok r ∧
    decide (appsOf r.1.qDot "B" Ex.poison = [⟨1000, 1700, 1⟩]) = true :=
  Ex.ok_of (by decide +kernel)

/-! ## C58: the events of one use -/

/-- C58: a use of a skill adds to the queue exactly one event for itself, at the times given by its
cast time and application delay, and one event for each follow-up that is not a dot. -/
theorem C58_events {t : ℚ} {skill : Skill} {m : SkillModifier} {tr tr' : Trackers}
    {buffs : StatusEffects} {targets : List String} {ops : List QueueOp} {out : List Event}
    (hq : runQueue {} ops = .ok (out, rb.events))
    (h : rb.processSkill t skill m tr buffs targets = .ok (rb', tr')) :
    ∃ timing cast application fs, skill.getTimingSpec m = .ok timing ∧
      getCastTime rb.stats timing m buffs = .ok cast ∧
      (∀ ts, timing = some ts → application = appliesAt t cast m ts) ∧
      (timing = none → application = t + cast) ∧
      skill.getFollowUpSkills m = .ok fs ∧
      ∃ main new, UseEvent skill m targets (snapshotsAt t cast) application main ∧
        List.Forall₂ (fun (fi : FollowUp × ℕ) e =>
          FollowUpEvent fi.1 fi.2 targets (snapshotsAt t cast) application e)
          (fs.zipIdx.filter (fun fi => fi.1.dotDuration.isNone)) new ∧
        rb'.events.q.Perm (main :: new ++ rb.events.q) := by
  obtain ⟨timing, cast, application, fs, h1, h2, h3, h4, h5, h6, _⟩ :=
    processSkill_spec (runQueue_spec _ _ _ _ Events.ok_empty hq).1 h
  exact ⟨timing, cast, application, fs, h1, h2, h3, h4, h5, h6⟩

/-- A spell with a cast of two seconds, and an ability with an echo on two targets. -/
example : ∃ r, RotationBuilder.processSkill Ex.start 1000 Ex.spell {} Ex.trackers {} ["A"] = .ok r ∧
    decide (r.1.events.q.map (fun e => (e.primary, appliedAt e)) = [(2450, 3250)]) = true :=
  Ex.ok_of (by decide +kernel)

example : ∃ r, RotationBuilder.processSkill Ex.start 1000 Ex.blast {} Ex.trackers {} ["A", "B"] = .ok r ∧
    decide (r.1.events.q.map (fun e => (e.skill.name, e.primary, appliedAt e, e.targets)) =
      [("Blast", 1000, 1200, ["A", "B"]), ("Echo", 1000, 2200, ["A", "B"])]) = true :=
  Ex.ok_of (by decide +kernel)

end Ama
