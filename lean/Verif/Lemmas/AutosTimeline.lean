import Verif.Lemmas.Autos

/-!
# Lemmas on auto-attacks in finished timelines
-/

namespace Ama

open Spec

namespace RotationBuilder

variable {fuel : ℕ} {rb rb' : RotationBuilder}

theorem addAll_events (as : List NewEvent) :
    (rb.addAll as).events = as.foldl Events.push rb.events := rfl

theorem forall₂_mem_of_left {A B : Type} {R : A → B → Prop} {as : List A} {bs : List B}
    (h : List.Forall₂ R as bs) {a : A} (ha : a ∈ as) : ∃ b ∈ bs, R a b := by
  induction h with
  | nil => simp at ha
  | cons h1 _ ih =>
    rcases List.mem_cons.1 ha with rfl | ha
    · exact ⟨_, by simp, h1⟩
    · obtain ⟨b, hb, hr⟩ := ih ha
      exact ⟨b, by simp [hb], hr⟩

theorem unaffected_moved {rb₁ rb₂ : RotationBuilder} (hd : rb₁.downtime = rb₂.downtime) {e e' : Event}
    {target : String} (h1 : e'.skill = e.skill) (h2 : e'.modifier = e.modifier)
    (h3 : e'.primary = e.primary) (h4 : appliedAt e' = appliedAt e) :
    Unaffected rb₁ e target ↔ Unaffected rb₂ e' target := by
  unfold Unaffected downtimeOf
  rw [h1, h2, h3, h4, hd]

theorem derived_shifted {δ : ℚ} {e e' : Event} (h : Derived δ e e') : Shifted δ e e' :=
  ⟨h.primary, derived_appliedAt h, h.skill, h.modifier, h.buffs, h.debuffs, h.targets⟩

/-- Finishing moves all events by the same time and drops only targets affected by downtime. -/
theorem finish_kept (hg : rb.events.Good) (h : finish rb = .ok rb') :
    ∃ δ, (rb.fightStart ≠ none → δ = 0) ∧
      (rb.fightStart = none → ((∀ e ∈ rb.events.q, ¬ Damaging e) ∧ δ = 0) ∨
        IsLeast (damageTimes rb.events) δ) ∧
      (∀ e' ∈ rb'.events.q, e'.targets ≠ [] ∧ ∃ e ∈ rb.events.q, Shifted δ e e') ∧
      (∀ e ∈ rb.events.q, ∃ e₁, e₁.targets = e.targets ∧ Shifted δ e e₁ ∧
        ∀ target ∈ e.targets, Unaffected rb e₁ target →
          ∃ e' ∈ rb'.events.q, Shifted δ e e' ∧ target ∈ e'.targets) := by
  classical
  unfold finish at h
  obtain ⟨rb2, h1, h⟩ := Py.bind_eq_ok.1 h
  obtain ⟨rb3, h2, h⟩ := Py.bind_eq_ok.1 h
  cases h
  have key : ∃ δ k, (rb.fightStart ≠ none → δ = 0) ∧
      (rb.fightStart = none → ((∀ e ∈ rb.events.q, ¬ Damaging e) ∧ δ = 0) ∨
        IsLeast (damageTimes rb.events) δ) ∧ rb2.events.Good ∧ rb2.downtime = rb.downtime ∧
      Changed (MovedEarlier δ k) rb.events.q rb2.events.q := by
    have hsame : Changed (MovedEarlier 0 0) rb.events.q rb.events.q := by
      refine ⟨rb.events.q, List.forall₂_same.2 (fun e _ => ?_), .refl _⟩
      exact ⟨by simp, by simp, by simp, rfl, rfl, rfl, rfl, rfl⟩
    unfold shiftIfNeeded at h1
    split_ifs at h1 with hf
    · rcases shift_spec hg h1 with ⟨g, rfl⟩ | ⟨first, g1, g2, _, g4, g5⟩
      · exact ⟨0, 0, fun _ => rfl, fun _ => .inl ⟨g, rfl⟩, hg, rfl, hsame⟩
      · refine ⟨first, _, fun hn => ?_, fun _ => .inr g1, g5, by rw [g4], g2⟩
        rw [Option.isNone_iff_eq_none] at hf
        exact absurd hf hn
    · cases h1
      rw [Option.isNone_iff_eq_none] at hf
      exact ⟨0, 0, fun _ => rfl, fun hn => absurd hn hf, hg, rfl, hsame⟩
  obtain ⟨δ, k, k1, k2, k3, k4, k5⟩ := key
  obtain ⟨g1, g2, _⟩ := remove_spec k3 h2
  refine ⟨δ, k1, k2, ?_, ?_⟩
  · intro e' he'
    obtain ⟨e2, he2, hw⟩ := changed_mem_right g1 he'
    obtain ⟨e, he, hm⟩ := changed_mem_right k5 (List.mem_filter.1 he2).1
    refine ⟨?_, e, he, ?_⟩
    · rw [hw.targets]
      simpa using (List.mem_filter.1 he2).2
    · refine ⟨?_, ?_, ?_, ?_, ?_, ?_, ?_⟩
      · rw [hw.primary, hm.primary]
      · rw [← moved_appliedAt hm]
        unfold appliedAt
        rw [hw.secondary, hw.primary]
      · rw [hw.skill, hm.skill]
      · rw [hw.modifier, hm.modifier]
      · rw [hw.buffs, hm.buffs]
      · rw [hw.debuffs, hm.debuffs]
      · rw [hw.targets, ← hm.targets]
        exact List.filter_sublist
  · intro e he
    obtain ⟨e1, he1, hm⟩ := changed_mem_left k5 he
    refine ⟨e1, hm.targets, ⟨hm.primary, moved_appliedAt hm, hm.skill, hm.modifier, hm.buffs,
      hm.debuffs, by rw [hm.targets]⟩, ?_⟩
    intro target ht hu
    have hu2 : Unaffected rb2 e1 target := (unaffected_moved k4.symm rfl rfl rfl rfl).1 hu
    have hin : target ∈ spared rb2 e1 := by
      unfold spared
      rw [List.mem_filter]
      exact ⟨by rw [hm.targets]; exact ht, by simpa using hu2⟩
    have hmem : e1 ∈ rb2.events.q.filter (fun e => decide (spared rb2 e ≠ [])) := by
      rw [List.mem_filter]
      refine ⟨he1, ?_⟩
      simp only [decide_eq_true_eq]
      intro h0
      rw [h0] at hin
      simp at hin
    obtain ⟨e', he', hw⟩ := changed_mem_left g1 hmem
    refine ⟨e', he', ⟨?_, ?_, ?_, ?_, ?_, ?_, ?_⟩, ?_⟩
    · rw [hw.primary, hm.primary]
    · rw [← moved_appliedAt hm]
      unfold appliedAt
      rw [hw.secondary, hw.primary]
    · rw [hw.skill, hm.skill]
    · rw [hw.modifier, hm.modifier]
    · rw [hw.buffs, hm.buffs]
    · rw [hw.debuffs, hm.debuffs]
    · rw [hw.targets, ← hm.targets]
      exact List.filter_sublist
    · rw [hw.targets]
      exact hin

theorem beforeAutos_eq (r : Run fuel rb rb') :
    afterPresses rb = .ok (rb.start.apply r.log) ∧
      beforeAutos rb = .ok ((rb.start.apply r.log).addAll r.dotAdds) := by
  have hq : afterPresses rb = .ok (rb.start.apply r.log) := by
    change (rb.start.processQSequence >>= fun rb => rb.processQTimed) = _
    rw [processQueues_eq, r.queue]
    rfl
  refine ⟨hq, ?_⟩
  unfold beforeAutos
  rw [hq]
  simp only [Py.ok_bind]
  rw [processAllDots_eq]
  have h1 : (rb.start.apply r.log).snapDots = rb.snapDots := (start_fields rb).2.2.1
  have h2 : (rb.start.apply r.log).qDot = addDots rb.qDot r.log.dots := by
    unfold apply
    simp only [(start_fields rb).2.2.2.2.2.2.2.2.2.2.2.1]
  have h3 := r.dots
  unfold lastFor at h3
  rw [h1, h2, h3]
  rfl

theorem autoSkill_spec {skill : Skill} {delay : ℚ} (h1 : rb.autoSkill = .ok skill)
    (h2 : autoDelay skill = .ok delay) : AutoSkill rb skill delay := by
  constructor
  · unfold autoSkill at h1
    obtain ⟨b, h3, h1⟩ := Py.bind_eq_ok.1 h1
    cases b with
    | true => exact .inl ⟨h3, h1⟩
    | false => exact .inr ⟨h3, h1⟩
  · unfold autoDelay at h2
    split at h2
    · rename_i ts hts
      cases h2
      exact ⟨ts, hts, rfl⟩
    · cases h2

theorem shifted_auto {skill : Skill} {delay δ t : ℚ} {target : String} {e e' : Event}
    (h : AutoEvent skill delay t target e) (hs : Shifted δ e e') (ht : e'.targets ≠ []) :
    AutoEvent skill delay (t - δ) target e' := by
  refine ⟨?_, ?_, ?_, ?_, ?_, ?_, ?_⟩
  · rw [hs.primary, h.primary]
  · rw [hs.applied, h.applied]
    ring
  · rw [hs.skill, h.skill]
  · rw [hs.modifier, h.modifier]
  · rw [hs.buffs, h.buffs]
  · rw [hs.debuffs, h.debuffs]
  · have := hs.targets
    rw [h.targets] at this
    rcases List.sublist_singleton.1 this with h1 | h1
    · exact absurd h1 ht
    · exact h1

end RotationBuilder

end Ama
