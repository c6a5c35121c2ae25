import Verif.Lemmas.BuilderShift
import Verif.Examples.Rotation

/-!
# Properties of finished timelines: trailing dots, normalisation, downtime (C31 - C33)
-/

namespace Ama

open Spec RotationBuilder

variable {fuel : ℕ} {rb rb' : RotationBuilder}

/-! ## C31: trailing dots -/

/-- C31 (`_partial`: missing is a last event at time exactly 0, where the claim is false, see
`C31_zero_refuted`).  If trailing dots are ignored and `last` is the time of the last event that is
neither a dot tick nor an auto-attack, then nothing in the timeline happens after it.  `δ` is by how
much the whole rotation is moved. -/
theorem C31_cut_partial {rb₁ : RotationBuilder} {last : ℚ} (ht : rb.ignoreTrailingDots = true)
    (h : rb.getSkillTiming fuel = .ok rb') (h₁ : afterPresses rb = .ok rb₁)
    (hl : IsGreatest {x | ∃ e ∈ rb₁.events.q, appliedAt e = x} last) (hz : last ≠ 0) :
    ∃ δ, (rb.fightStart ≠ none → δ = 0) ∧ rb'.presses.Perm (rb₁.presses.map (earlier δ)) ∧
      ∀ e ∈ rb'.events.q, appliedAt e ≤ last - δ := by
  obtain ⟨r⟩ := run_of_ok h
  have hq : afterPresses rb = (rb.start.processQSequence >>= fun rb => rb.processQTimed) := rfl
  rw [hq, processQueues_eq, r.queue] at h₁
  cases h₁
  have hlast : (rb.start.apply r.log).lastFor = some last := by
    have htr : (rb.start.apply r.log).ignoreTrailingDots = true := by
      rw [← ht]
      exact (start_fields rb).2.2.2.2.1
    unfold lastFor
    rw [if_pos htr]
    obtain ⟨g1, g2⟩ := lastEvent_fold (rb.start.apply r.log).events.q none
    cases hx : (rb.start.apply r.log).events.getLastEventTime with
    | none =>
      obtain ⟨e, he, _⟩ := hl.1
      rw [(g1.1 hx).2] at he
      simp at he
    | some x =>
      have g3 := g2 x hx
      congr 1
      refine IsGreatest.unique (s := {x | ∃ e ∈ (rb.start.apply r.log).events.q, appliedAt e = x}) ?_ hl
      simp only [appliedAt_eq]
      simpa using g3
  obtain ⟨δ, h1, _, h3, h4, _⟩ := r.spec
  have hp : (rb.start.apply r.log).presses = r.log.presses := by
    unfold apply
    simp [(start_fields rb).2.2.2.2.2.2.2.2.2.2.2.2.1]
  refine ⟨δ, h1, ?_, ?_⟩
  · rw [h4, hp]
    exact sortBy_perm _ _
  · intro e' he'
    obtain ⟨e, he, hd⟩ := h3 e' he'
    rw [derived_appliedAt hd]
    rw [r.collected_events] at he
    obtain ⟨a, ha, hb⟩ := mem_pushes he
    have hle : appliedAt e ≤ last := by
      unfold Run.adds at ha
      rcases List.mem_append.1 ha with ha | ha
      · rcases List.mem_append.1 ha with ha | ha
        · have hev : (rb.start.apply r.log).events = r.log.adds.foldl Events.push {} := by
            unfold apply
            simp [(start_fields rb).2.2.2.2.2.2.2.2.2.2.2.2.2.1]
          obtain ⟨e2, he2, hb2⟩ := mem_pushes_of ha
          rw [← hev] at he2
          rw [becomes_appliedAt' hb, ← becomes_appliedAt' hb2]
          exact hl.2 ⟨e2, he2, rfl⟩
        · obtain ⟨_, _, _, _, _, _, _, t, h5, h6, _⟩ := mem_allDotAdds r.dots ha
          rw [becomes_appliedAt' hb]
          unfold NewEvent.appliedAt
          rw [h5]
          rw [hlast] at h6
          simp only [tickSkipped, Bool.and_eq_false_iff, decide_eq_false_iff_not, not_not, not_lt] at h6
          rcases h6 with h6 | h6
          · exact absurd h6 hz
          · exact h6
      · have hau := r.autos
        split_ifs at hau
        · obtain ⟨_, skill, delay, as, _, _, h7, h8⟩ := hau
          rw [h7] at ha
          obtain ⟨x, hx, rfl⟩ := List.mem_map.1 ha
          rw [becomes_appliedAt' hb]
          exact (h8 last hlast x hx).le
        · rw [hau] at ha
          simp at ha
    linarith

/-- The dot of Venom, applied at 0.7 s, would tick at 0.7 s, 3.7 s and 6.7 s; the last hit is at
5.5 s. -/
example : ∃ rb rb', Built rb ∧ NonnegDelays rb.lib ∧ rb.getSkillTiming 100 = .ok rb' ∧
    rb.ignoreTrailingDots = true ∧ sortBy id (rb'.events.q.map appliedAt) = [700, 700, 3700, 5500] :=
  Ex.run_of (trailing := true) (fightStart := some 0) [Ex.next "Venom", Ex.at_ 5 "Hit"] 100
    (fun rb rb' => rb.ignoreTrailingDots = true ∧
      sortBy id (rb'.events.q.map appliedAt) = [700, 700, 3700, 5500]) (h := by decide +kernel)

/-- C31 is false if the last event happens at time 0: nothing is cut then. -/
theorem C31_zero_refuted :
    ∃ rb rb', Built rb ∧ NonnegDelays rb.lib ∧ rb.getSkillTiming 0 = .ok rb' ∧
      rb.ignoreTrailingDots = true ∧
      Ex.okAnd (afterPresses rb) (fun rb₁ => decide (rb₁.events.q.map appliedAt = [0])) = true ∧
      ∃ e ∈ rb'.events.q, appliedAt e = 6000 :=
  Ex.run_of (trailing := true) (fightStart := some 0) [Ex.next "Curse"] 0
    (fun rb rb' => rb.ignoreTrailingDots = true ∧
      Ex.okAnd (afterPresses rb) (fun rb₁ => decide (rb₁.events.q.map appliedAt = [0])) = true ∧
      ∃ e ∈ rb'.events.q, appliedAt e = 6000) (h := by decide +kernel)

/-! ## C32: normalisation -/

/-- C32: normalising does nothing to a timeline without damage; otherwise it moves all events and
presses by the time of the first damage, and changes nothing else. -/
theorem C32_shift {ops : List QueueOp} {out : List Event}
    (hq : runQueue {} ops = .ok (out, rb.events)) (h : rb.shiftTimelines = .ok rb') :
    ((∀ e ∈ rb.events.q, ¬ Damaging e) ∧ rb' = rb) ∨
    ∃ first, IsLeast (damageTimes rb.events) first ∧ IsLeast (damageTimes rb'.events) 0 ∧
      Changed (MovedEarlier first (Utils.transformTimeToPrio first)) rb.events.q rb'.events.q ∧
      rb'.presses = rb.presses.map (earlier first) ∧
      rb' = { rb with events := rb'.events, presses := rb'.presses } := by
  rcases shift_spec (good_of_runQueue hq) h with h1 | ⟨first, h1, h2, h3, h4, _⟩
  · exact .inl h1
  · exact .inr ⟨first, h1, first_at_zero h1 h2, h2, h3, h4⟩

/-- C32: the order of processing stays the same, up to events with the same priority and name. -/
theorem C32_order {ops : List QueueOp} {out before after : List Event}
    (hq : runQueue {} ops = .ok (out, rb.events)) (h : rb.shiftTimelines = .ok rb')
    (hb : drain rb.events.q.length rb.events = .ok before)
    (ha : drain rb'.events.q.length rb'.events = .ok after) :
    ∃ k, after.map Event.rank = before.map (fun e => (e.priority - k, e.skill.name)) := by
  have hg := good_of_runQueue hq
  rcases shift_spec hg h with ⟨_, rfl⟩ | ⟨first, _, h2, _, _, h5⟩
  · rw [hb] at ha
    cases ha
    exact ⟨0, by simp [Event.rank]⟩
  · exact ⟨_, ranks_moved hg.1 h5.1 h2 hb ha⟩

/-- C32 for whole rotations: without a fight start time no damage lands before time 0. -/
theorem C32_timeline (hf : rb.fightStart = none) (h : rb.getSkillTiming fuel = .ok rb') :
    ∀ t ∈ damageTimes rb'.events, 0 ≤ t := by
  obtain ⟨r⟩ := run_of_ok h
  obtain ⟨δ, _, h2, h3, _⟩ := r.spec
  rintro t ⟨e', he', ⟨s, hs⟩, rfl⟩
  obtain ⟨e, he, hd⟩ := h3 e' he'
  have hdam : Damaging e := ⟨s, by rw [← hs, hd.skill, hd.modifier]⟩
  rw [derived_appliedAt hd]
  rcases h2 hf with h2 | ⟨h2, _⟩
  · have := ((firstDamage_spec h2).2 δ rfl).2 ⟨e, he, hdam, rfl⟩
    linarith
  · exact absurd hdam ((firstDamage_spec h2).1.1 rfl e he)

/-- A spell that hits 2.25 s after it is pressed, then a hit. -/
example : ∃ rb rb', Built rb ∧ NonnegDelays rb.lib ∧ rb.getSkillTiming 0 = .ok rb' ∧
    rb.fightStart = none ∧ rb'.events.q.map (fun e => (e.primary, appliedAt e)) =
      [(-800, 0), (1950, 2450)] ∧ rb'.presses.map (·.t) = [-2250, 1950] :=
  Ex.run_of [Ex.at_ 1 "Spell", Ex.at_ (52 / 10) "Hit"] 0
    (fun rb rb' => rb.fightStart = none ∧ rb'.events.q.map (fun e => (e.primary, appliedAt e)) =
      [(-800, 0), (1950, 2450)] ∧ rb'.presses.map (·.t) = [-2250, 1950]) (h := by decide +kernel)

/-! ## C33: downtime -/

open Classical in
/-- C33: filtering keeps of each event exactly the targets that are not affected by downtime, drops
events of which none remains, and changes nothing else. -/
theorem C33_filter {ops : List QueueOp} {out : List Event}
    (hq : runQueue {} ops = .ok (out, rb.events)) (h : rb.removeDamageDuringDowntime = .ok rb') :
    Changed (fun e e' => WithTargets (spared rb e) e e')
      (rb.events.q.filter (fun e => decide (spared rb e ≠ []))) rb'.events.q ∧
    rb' = { rb with events := rb'.events } :=
  let h := remove_spec (good_of_runQueue hq) h
  ⟨h.1, h.2.1⟩

/-- C33 for whole rotations: no event of the timeline damages a target during its downtime. -/
theorem C33_timeline (h : rb.getSkillTiming fuel = .ok rb') :
    ∀ e ∈ rb'.events.q, e.targets ≠ [] ∧ ∀ target ∈ e.targets, Unaffected rb' e target := by
  obtain ⟨r⟩ := run_of_ok h
  have hfin := r.finished
  unfold finish at hfin
  obtain ⟨rb2, h1, hfin⟩ := Py.bind_eq_ok.1 hfin
  obtain ⟨rb3, h2, hfin⟩ := Py.bind_eq_ok.1 hfin
  cases hfin
  have hg2 : rb2.events.Good := by
    unfold shiftIfNeeded at h1
    split_ifs at h1
    · rcases shift_spec r.good h1 with ⟨_, rfl⟩ | ⟨_, _, _, _, _, h5⟩
      · exact r.good
      · exact h5
    · cases h1
      exact r.good
  obtain ⟨g1, g2, _⟩ := remove_spec hg2 h2
  intro e' he'
  obtain ⟨e, he, hw⟩ := changed_mem_right g1 he'
  rw [hw.targets]
  refine ⟨by simpa using (List.mem_filter.1 he).2, fun target ht => ?_⟩
  have hu : Unaffected rb2 e target := by
    unfold spared at ht
    simpa using (List.mem_filter.1 ht).2
  have hdt : rb3.downtime = rb2.downtime := by rw [g2]
  have happ : appliedAt e' = appliedAt e := by
    unfold appliedAt
    rw [hw.secondary, hw.primary]
  unfold Unaffected downtimeOf at hu ⊢
  simp only [hw.skill, hw.modifier, happ, hw.primary, hdt]
  exact hu

/-- Two targets of which one is away from 1 s to 2 s: it is spared the echo of Blast, but not the
blast itself. -/
example : ∃ rb rb', Built rb ∧ NonnegDelays rb.lib ∧ rb.getSkillTiming 0 = .ok rb' ∧
    rb'.events.q.map (fun e => (e.skill.name, e.targets)) = [("Blast", ["A", "B"]), ("Echo", ["B"])] :=
  Ex.run_of (fightStart := some 0) (downtime := .dict [("A", [⟨1, 2, none⟩])]) [Ex.next "Blast" 1 "A, B"] 0
    (fun _ rb' => rb'.events.q.map (fun e => (e.skill.name, e.targets)) =
      [("Blast", ["A", "B"]), ("Echo", ["B"])]) (h := by decide +kernel)

end Ama
