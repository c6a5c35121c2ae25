import Verif.Lemmas.BuilderInv

/-!
# Lemmas on snapshot and application times of whole timelines
-/

namespace Ama

open Spec

namespace RotationBuilder

variable {fuel : ℕ} {rb rb' : RotationBuilder}

theorem derived_appliedAt {δ : ℚ} {e e' : Event} (h : Derived δ e e') :
    appliedAt e' = appliedAt e - δ := by
  unfold appliedAt
  rw [h.secondary, h.primary]
  cases e.secondary <;> rfl

theorem becomes_appliedAt' {a : NewEvent} {e : Event} (h : NewEvent.Becomes a e) :
    appliedAt e = NewEvent.appliedAt a := by
  rw [← becomes_appliedAt h]
  unfold appliedAt Events.applicationTime
  cases e.secondary <;> rfl

/-- Every event of the timeline is a collected one, moved. -/
theorem Run.event (r : Run fuel rb rb') :
    ∃ δ, ∀ e' ∈ rb'.events.q, ∃ a ∈ r.adds, ∃ e, NewEvent.Becomes a e ∧ Derived δ e e' := by
  obtain ⟨δ, _, _, h3, _⟩ := r.spec
  refine ⟨δ, fun e' he' => ?_⟩
  obtain ⟨e, he, hd⟩ := h3 e' he'
  rw [r.collected_events] at he
  obtain ⟨a, ha, hb⟩ := mem_pushes he
  exact ⟨a, ha, e, hb, hd⟩

theorem mem_useAdds {u : Use} {a : NewEvent} (ha : a ∈ u.mainEvent :: u.followUpEvents) :
    a = u.mainEvent ∨ ∃ f ∈ u.followUps, ∃ k ts, f.dotDuration = none ∧
      a = followUpEvent f k u.snapshot u.application ts := by
  rcases List.mem_cons.1 ha with rfl | ha
  · exact .inl rfl
  · right
    unfold Use.followUpEvents at ha
    obtain ⟨fi, hfi, rfl⟩ := List.mem_map.1 ha
    rw [List.mem_filter] at hfi
    refine ⟨fi.1, ?_, _, _, by simpa using hfi.2, rfl⟩
    have := List.mem_zipIdx (x := fi.1) (i := fi.2) hfi.1
    rw [this.2.2]
    exact List.getElem_mem _

theorem use_adds_le {lib : SkillLibrary} (hlib : NonnegDelays lib) {stats : Stats} {u : Use}
    (hv : u.Valid stats) (hl : u.InLib lib) {a : NewEvent}
    (ha : a ∈ u.mainEvent :: u.followUpEvents) : a.primary ≤ NewEvent.appliedAt a := by
  have hu := use_snapshot_le hlib hv hl
  rcases mem_useAdds ha with rfl | ⟨f, hf, k, ts, _, rfl⟩
  · exact hu
  · have hd' : (0 : ℚ) ≤ f.delayAfterParentApplication := Nat.cast_nonneg _
    unfold followUpEvent NewEvent.appliedAt
    simp only
    split_ifs
    · linarith
    · exact le_rfl

theorem auto_adds_le (hlib : NonnegDelays rb.lib) (r : Run fuel rb rb') {a : NewEvent}
    (ha : a ∈ r.autoAdds) : a.primary ≤ NewEvent.appliedAt a := by
  have h := r.autos
  split_ifs at h with hen
  · obtain ⟨_, skill, delay, as, h1, h2, h3, _⟩ := h
    rw [h3] at ha
    obtain ⟨x, _, rfl⟩ := List.mem_map.1 ha
    have hget : ∃ name, rb.lib.getSkill name rb.stats.jobClass = .ok skill := by
      unfold autoSkill at h1
      obtain ⟨b, _, h1⟩ := Py.bind_eq_ok.1 h1
      split_ifs at h1
      · exact ⟨_, h1⟩
      · exact ⟨_, h1⟩
    obtain ⟨name, hn⟩ := hget
    have hd : 0 ≤ delay := by
      unfold autoDelay at h2
      split at h2
      · rename_i ts hts
        cases h2
        refine hlib name rb.stats.jobClass skill hn {} ts ?_
        unfold SkillCore.getTimingSpec
        rw [hts]
        rfl
      · cases h2
    change x.1 ≤ x.1 + delay
    linarith
  · rw [h] at ha
    simp at ha

/-- The times of the ticks of recorded applications. -/
theorem dot_adds_le (hi : rb.Inv) (hlib : NonnegDelays rb.lib) (r : Run fuel rb rb') {a : NewEvent}
    (ha : a ∈ r.dotAdds) :
    a.primary < NewEvent.appliedAt a + 1 ∧ (rb.snapDots = none → a.primary ≤ NewEvent.appliedAt a) ∧
      ((∀ x, HasApp (addDots rb.qDot r.log.dots) x → ∃ z : ℤ, x.2.2.application = z) →
        a.primary ≤ NewEvent.appliedAt a) := by
  obtain ⟨x, hx, duration, _, h1, _, _, t, h2, _, ⟨start, j, h3, h4⟩, _⟩ := mem_allDotAdds r.dots ha
  obtain ⟨u, hv, hl, hxu⟩ := run_dots hi r hx
  have hle : x.2.2.snapshot ≤ x.2.2.application := by
    unfold Use.dots at hxu
    obtain ⟨fi, _, hxu⟩ := List.mem_flatMap.1 hxu
    obtain ⟨tg, _, rfl⟩ := List.mem_map.1 hxu
    exact use_snapshot_le hlib hv hl
  obtain ⟨g1, g2, g3⟩ := dotStart_le h3
  have happ : NewEvent.appliedAt a = t := by
    unfold NewEvent.appliedAt
    rw [h2]
  have ht : (start : ℚ) ≤ t := by
    rw [h4]
    push_cast
    have : (0 : ℚ) ≤ j := by positivity
    linarith
  rw [happ, h1]
  refine ⟨by linarith, fun hs => ?_, fun hw => ?_⟩
  · have := g1 hs
    linarith
  · obtain ⟨z, hz⟩ := hw x hx
    have := g3 z hz
    linarith

/-- Snapshot and application times of the collected events. -/
theorem adds_le (hi : rb.Inv) (hlib : NonnegDelays rb.lib) (r : Run fuel rb rb') {a : NewEvent}
    (ha : a ∈ r.adds) :
    a.primary < NewEvent.appliedAt a + 1 ∧ (rb.snapDots = none → a.primary ≤ NewEvent.appliedAt a) ∧
      ((∀ x, HasApp (addDots rb.qDot r.log.dots) x → ∃ z : ℤ, x.2.2.application = z) →
        a.primary ≤ NewEvent.appliedAt a) := by
  have hle : a.primary ≤ NewEvent.appliedAt a →
      a.primary < NewEvent.appliedAt a + 1 ∧
        (rb.snapDots = none → a.primary ≤ NewEvent.appliedAt a) ∧
        ((∀ x, HasApp (addDots rb.qDot r.log.dots) x → ∃ z : ℤ, x.2.2.application = z) →
          a.primary ≤ NewEvent.appliedAt a) := fun h => ⟨by linarith, fun _ => h, fun _ => h⟩
  unfold Run.adds at ha
  rcases List.mem_append.1 ha with ha | ha
  · rcases List.mem_append.1 ha with ha | ha
    · obtain ⟨su, tu, order, h1, _, _, _, _, _, h7⟩ := run_uses hi r
      rw [h1, logsOf_adds, List.mem_flatMap] at ha
      obtain ⟨u, hu, ha⟩ := ha
      exact hle (use_adds_le hlib (h7 u hu).1 (h7 u hu).2 ha)
    · exact dot_adds_le hi hlib r ha
  · exact hle (auto_adds_le hlib r ha)

end RotationBuilder

end Ama
