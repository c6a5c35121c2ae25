import Verif.Spec.Safe
import Verif.Lemmas.DamageSteps
import Verif.Lemmas.BuilderFrame
import Verif.Lemmas.BuilderShift
import Verif.Lemmas.AutosTimeline

/-!
# Where the skills and modifiers of a timeline come from
-/

namespace Ama

open Spec

namespace RotationBuilder

/-- The follow-up belongs to a press of the rotation, under conditions that include those asked for. -/
def FollowUpOf (rb : RotationBuilder) (f : FollowUp) : Prop :=
  ∃ parent m₀ job m fs, Asked rb parent m₀ job ∧ m₀.withCondition ⊆ m.withCondition ∧
    parent.getFollowUpSkills m = .ok fs ∧ f ∈ fs

/-- The skill and the modifier are those of a press, with more conditions; or of a follow-up; or of an
auto-attack. -/
inductive Origin (rb : RotationBuilder) (skill : Skill) (m : SkillModifier) : Prop
  | press (m₀ : SkillModifier) (job : String) : Asked rb skill m₀ job →
      Widens m₀ m → Origin rb skill m
  | followUp (f : FollowUp) : FollowUpOf rb f → skill = f.skill.toSkill → m = {} → Origin rb skill m
  | auto (delay : ℚ) : rb.enableAutos = true → AutoSkill rb skill delay → m = {} → Origin rb skill m

theorem asked_queued {rb : RotationBuilder} {skill : Skill} {m : SkillModifier} {job : String}
    (h : Asked rb skill m job) : Queued rb skill := by
  rcases h with ⟨p, hp, rfl, -⟩ | ⟨p, hp, rfl, -⟩
  · exact .inl ⟨p, hp, rfl⟩
  · exact .inr ⟨p, hp, rfl⟩

theorem FollowUpOf.inPlay {rb : RotationBuilder} {f : FollowUp} (h : FollowUpOf rb f) :
    InPlay rb f.skill := by
  obtain ⟨parent, m₀, job, m, fs, h1, -, h2, h3⟩ := h
  exact .inl ⟨parent, asked_queued h1, .inr ⟨m, fs, h2, f, h3, rfl⟩⟩

theorem Origin.inPlay {rb : RotationBuilder} {skill : Skill} {m : SkillModifier} (h : Origin rb skill m) :
    InPlay rb skill.toSkillCore := by
  cases h with
  | press m₀ job h => exact .inl ⟨skill, asked_queued h, .inl rfl⟩
  | followUp f h1 h2 =>
    subst h2
    exact h1.inPlay
  | auto delay h1 h2 => exact .inr ⟨h1, skill, delay, h2, rfl⟩

theorem queue_origin {rb : RotationBuilder} {l : Log} (hl : rb.queueLog = .ok l) :
    (∀ a ∈ l.adds, Origin rb a.skill a.modifier) ∧ ∀ x ∈ l.dots, FollowUpOf rb x.2.1 := by
  obtain ⟨su, tu, order, rfl, h2, h3, h4, -⟩ := queueLog_spec hl
  have key : ∀ u ∈ su ++ tu, u.Valid rb.stats ∧ ∃ job, Asked rb u.skill u.asked job := by
    intro u hu
    obtain ⟨hv, hor⟩ := queue_use h2 h3 h4 hu
    refine ⟨hv, ?_⟩
    rcases hor with ⟨p, hp, -, e1, e2, -, e3⟩ | ⟨p, hp, -, -, e1, e2, -, e3⟩
    · exact ⟨_, .inr ⟨p, hp, e1.symm, e2.symm, rfl⟩⟩
    · exact ⟨_, .inl ⟨p, hp, e1.symm, e2.symm, rfl⟩⟩
  constructor
  · intro a ha
    rw [logsOf_adds, List.mem_flatMap] at ha
    obtain ⟨u, hu, ha⟩ := ha
    obtain ⟨hv, job, hk⟩ := key u hu
    rcases List.mem_cons.1 ha with rfl | ha
    · exact .press _ job hk ⟨hv.same, hv.conds⟩
    · obtain ⟨fi, hfi, rfl⟩ := List.mem_map.1 ha
      have := List.fst_mem_of_mem_zipIdx (List.mem_filter.1 hfi).1
      exact .followUp fi.1 ⟨_, _, job, _, _, hk, hv.conds, hv.followUps, this⟩ rfl rfl
  · intro x hx
    rw [logsOf_dots, List.mem_flatMap] at hx
    obtain ⟨u, hu, hx⟩ := hx
    obtain ⟨hv, job, hk⟩ := key u hu
    obtain ⟨fi, hfi, hx⟩ := List.mem_flatMap.1 hx
    obtain ⟨tg, -, rfl⟩ := List.mem_map.1 hx
    have := List.fst_mem_of_mem_zipIdx (List.mem_filter.1 hfi).1
    exact ⟨_, _, job, _, _, hk, hv.conds, hv.followUps, this⟩

/-! ## All builders -/

theorem op_frame {rb rb' : RotationBuilder} {op : BuilderOp} (h : op.run rb = .ok rb') :
    rb'.stats = rb.stats ∧ rb'.lib = rb.lib ∧ rb'.fightStart = rb.fightStart ∧
      (∀ p ∈ rb.qTimed, p ∈ rb'.qTimed) ∧ (∀ p ∈ rb.qSequence, p ∈ rb'.qSequence) ∧
      (rb'.qDot = rb.qDot ∨ ∃ l, rb.start.queueLog = .ok l ∧ rb'.qDot = addDots rb.qDot l.dots) := by
  cases op with
  | addNext name m job n targets =>
    obtain ⟨skill, h1, rfl⟩ := addNext_ok h
    exact ⟨rfl, rfl, rfl, fun _ h => h, fun _ h => List.mem_append_left _ h, .inl rfl⟩
  | add t name m job targets =>
    obtain ⟨skill, h1, rfl⟩ := add_ok h
    exact ⟨rfl, rfl, rfl, fun _ h => List.mem_append_left _ h, fun _ h => h, .inl rfl⟩
  | setTrailing b =>
    cases h
    exact ⟨rfl, rfl, rfl, fun _ h => h, fun _ h => h, .inl rfl⟩
  | setAutos b =>
    cases h
    exact ⟨rfl, rfl, rfl, fun _ h => h, fun _ h => h, .inl rfl⟩
  | timing fuel =>
    obtain ⟨r⟩ := run_of_ok h
    obtain ⟨δ, _, _, _, _, h5, h6⟩ := r.spec
    obtain ⟨e1, e2, e3, e4, e5, e6, e7, e8, e9, e10, e11, e12, e13, e14, e15⟩ := start_fields rb
    have g1 : r.collected.stats = rb.stats := e1
    have g2 : r.collected.lib = rb.lib := e2
    have g3 : r.collected.fightStart = rb.fightStart := e6
    have g4 : r.collected.qTimed = rb.qTimed := e10
    have g5 : r.collected.qSequence = rb.qSequence := e11
    have g6 : r.collected.qDot = addDots rb.qDot r.log.dots := by
      change addDots rb.start.qDot r.log.dots = _
      rw [e12]
    have k1 : rb'.stats = r.collected.stats := (congrArg RotationBuilder.stats h6 :)
    have k2 : rb'.lib = r.collected.lib := (congrArg RotationBuilder.lib h6 :)
    have k3 : rb'.fightStart = r.collected.fightStart := (congrArg RotationBuilder.fightStart h6 :)
    have k4 : rb'.qTimed = r.collected.qTimed := (congrArg RotationBuilder.qTimed h6 :)
    have k5 : rb'.qSequence = r.collected.qSequence := (congrArg RotationBuilder.qSequence h6 :)
    have k6 : rb'.qDot = r.collected.qDot := (congrArg RotationBuilder.qDot h6 :)
    refine ⟨k1.trans g1, k2.trans g2, k3.trans g3, ?_, ?_, .inr ⟨r.log, r.queue, k6.trans g6⟩⟩
    · rw [k4, g4]
      exact fun _ h => h
    · rw [k5, g5]
      exact fun _ h => h

theorem asked_mono {rb rb' : RotationBuilder} (h1 : ∀ p ∈ rb.qTimed, p ∈ rb'.qTimed)
    (h2 : ∀ p ∈ rb.qSequence, p ∈ rb'.qSequence) {skill : Skill} {m : SkillModifier} {job : String}
    (h : Asked rb skill m job) : Asked rb' skill m job := by
  rcases h with ⟨p, hp, h⟩ | ⟨p, hp, h⟩
  · exact .inl ⟨p, h1 p hp, h⟩
  · exact .inr ⟨p, h2 p hp, h⟩

theorem FollowUpOf.mono {rb rb' : RotationBuilder} (h1 : ∀ p ∈ rb.qTimed, p ∈ rb'.qTimed)
    (h2 : ∀ p ∈ rb.qSequence, p ∈ rb'.qSequence) {f : FollowUp} (h : FollowUpOf rb f) :
    FollowUpOf rb' f := by
  obtain ⟨parent, m₀, job, m, fs, g1, g2⟩ := h
  exact ⟨parent, m₀, job, m, fs, asked_mono h1 h2 g1, g2⟩

theorem start_asked {rb : RotationBuilder} {skill : Skill} {m : SkillModifier} {job : String} :
    Asked rb.start skill m job ↔ Asked rb skill m job := by
  obtain ⟨e1, e2, e3, e4, e5, e6, e7, e8, e9, e10, e11, -⟩ := start_fields rb
  unfold Asked
  rw [e10, e11]

theorem start_followUpOf {rb : RotationBuilder} {f : FollowUp} (h : FollowUpOf rb.start f) :
    FollowUpOf rb f := by
  obtain ⟨parent, m₀, job, m, fs, g1, g2⟩ := h
  exact ⟨parent, m₀, job, m, fs, start_asked.1 g1, g2⟩

theorem start_origin {rb : RotationBuilder} {skill : Skill} {m : SkillModifier}
    (h : Origin rb.start skill m) : Origin rb skill m := by
  obtain ⟨e1, e2, e3, e4, e5, -⟩ := start_fields rb
  cases h with
  | press m₀ job h1 h2 => exact .press m₀ job (start_asked.1 h1) h2
  | followUp f h1 h2 h3 => exact .followUp f (start_followUpOf h1) h2 h3
  | auto delay h1 h2 h3 =>
    unfold AutoSkill at h2
    rw [e1, e2] at h2
    exact .auto delay (by rw [← h1]; first | exact e3.symm | exact e4.symm | exact e5.symm) h2 h3

/-- All recorded dots belong to presses of the rotation. -/
theorem dots_origin {rb : RotationBuilder} (hb : Built rb) : ∀ x, HasApp rb.qDot x → FollowUpOf rb x.2.1 := by
  obtain ⟨stats, lib, sd, a, t, fs, dt, tg, rb0, ops, h0, h1⟩ := hb
  induction ops using List.reverseRecOn generalizing rb with
  | nil =>
    cases h1
    unfold init at h0
    obtain ⟨p, _, h0⟩ := Py.bind_eq_ok.1 h0
    cases h0
    rintro x ⟨td, htd, -⟩
    simp at htd
  | append_singleton ops op ih =>
    rw [Py.foldlM_append] at h1
    obtain ⟨rb1, h1, h2⟩ := Py.bind_eq_ok.1 h1
    rw [Py.foldlM_cons] at h2
    obtain ⟨rb2, h3, h4⟩ := Py.bind_eq_ok.1 h2
    cases h4
    obtain ⟨f1, f2, f3, f4, f5, f6⟩ := op_frame h3
    intro x hx
    rcases f6 with f6 | ⟨l, hl, f6⟩
    · rw [f6] at hx
      exact (ih h1 x hx).mono f4 f5
    · rw [f6] at hx
      rcases hasApp_addDots hx with hx | hx
      · exact (ih h1 x hx).mono f4 f5
      · exact (start_followUpOf ((queue_origin hl).2 x hx)).mono f4 f5

theorem dotAdds_modifier {snap last : Option ℚ} {d : Dots} {as : List NewEvent}
    (h : allDotAdds snap last d = .ok as) {a : NewEvent} (ha : a ∈ as) : a.modifier = {} := by
  unfold allDotAdds at h
  obtain ⟨td, htd, l1, h1, ha⟩ := (mem_flatM h).1 ha
  obtain ⟨fa, hfa, l2, h2, ha⟩ := (mem_flatM h1).1 ha
  unfold dotAdds at h2
  cases hdur : fa.1.dotDuration with
  | none =>
    rw [hdur] at h2
    cases h2
  | some duration =>
    rw [hdur] at h2
    obtain ⟨r, hr, t, k, rfl, -⟩ := mem_rangeAdds h2 ha
    rfl

/-- The events of the presses and of the dots. -/
theorem collected_origin {rb : RotationBuilder} (hb : Built rb) {l : Log} (hl : rb.start.queueLog = .ok l)
    {snap last : Option ℚ} {as : List NewEvent} (has : allDotAdds snap last (addDots rb.qDot l.dots) = .ok as) :
    ∀ a ∈ l.adds ++ as, Origin rb a.skill a.modifier := by
  intro a ha
  rcases List.mem_append.1 ha with ha | ha
  · exact start_origin ((queue_origin hl).1 a ha)
  · obtain ⟨x, hx, dur, h1, h2, h3, -⟩ := mem_allDotAdds has ha
    refine .followUp x.2.1 ?_ h3 (dotAdds_modifier has ha)
    rcases hasApp_addDots hx with hx | hx
    · exact dots_origin hb x hx
    · exact start_followUpOf ((queue_origin hl).2 x hx)

/-- The skills and modifiers of a timeline. -/
theorem timing_origin {rb rb' : RotationBuilder} {fuel : ℕ} (hb : Built rb)
    (h : rb.getSkillTiming fuel = .ok rb') : ∀ e ∈ rb'.events.q, Origin rb e.skill e.modifier := by
  obtain ⟨r⟩ := run_of_ok h
  have hc : ∀ a ∈ r.adds, Origin rb a.skill a.modifier := by
    intro a ha
    rcases List.mem_append.1 ha with ha | ha
    · exact collected_origin hb r.queue r.dots a ha
    · have hau := r.autos
      split_ifs at hau with he
      · obtain ⟨-, skill, delay, as, g1, g2, g3, -⟩ := hau
        rw [g3] at ha
        obtain ⟨x, hx, rfl⟩ := List.mem_map.1 ha
        exact .auto delay he (autoSkill_spec g1 g2) rfl
      · rw [hau] at ha
        simp at ha
  obtain ⟨δ, -, -, hk, -⟩ := finish_kept r.good r.finished
  intro e he
  obtain ⟨-, e0, he0, hs⟩ := hk e he
  have he0 : e0 ∈ r.collected.events.q := he0
  rw [r.collected_events] at he0
  obtain ⟨a, ha, hb⟩ := mem_pushes he0
  rw [hs.skill, hs.modifier, hb.2.2.1, hb.2.2.2.1]
  exact hc a ha

end RotationBuilder

end Ama
