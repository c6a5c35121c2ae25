import Verif.Lemmas.BuilderUses

/-!
# Lemmas on `get_skill_timing` as a whole
-/

namespace Ama

open Spec

/-- A queue built with `add`: a heap in which no event carries the same time twice. -/
def Events.Good (evs : Events) : Prop := evs.Ok ∧ ∀ e ∈ evs.q, e.secondary ≠ some e.primary

theorem becomes_normal {a : NewEvent} {e : Event} (h : NewEvent.Becomes a e) :
    e.secondary ≠ some e.primary := by
  obtain ⟨_, h2, _, _, _, _, _, _, h9⟩ := h
  split_ifs at h9 with hs
  · rw [h9.1]
    simp
  · rw [h9.1, h2]
    exact hs

theorem Events.good_empty : ({} : Events).Good := ⟨Events.ok_empty, by simp⟩

theorem Events.good_push {evs : Events} (h : evs.Good) (as : List NewEvent) :
    (as.foldl Events.push evs).Good := by
  obtain ⟨h1, es, h2, h3⟩ := pushes_spec as evs h.1
  refine ⟨h1, ?_⟩
  intro e he
  rcases List.mem_append.1 (h3.mem_iff.1 he) with he | he
  · obtain ⟨a, _, hb⟩ := forall₂_mem_right (eventsOf_forall₂ h2) he
    exact becomes_normal hb
  · exact h.2 e he

namespace RotationBuilder

/-! ## Autos -/

theorem autosLoop_adds (skill : Skill) (delay : ℚ) (ts : List (ℚ × String)) (last weaponDelay : ℚ)
    (n : ℕ) (rb rb' : RotationBuilder) (t : WithTop ℚ) (i : ℕ)
    (h : autosLoop skill delay ts last weaponDelay n rb t i = .ok rb') :
    ∃ autos : List (ℚ × String),
      rb' = rb.addAll (autos.map (fun x => autoEvent skill x.1 delay x.2)) ∧
      ∀ x ∈ autos, x.1 + delay < last := by
  induction n generalizing rb t i with
  | zero => cases h
  | succ n ih =>
    unfold autosLoop at h
    cases t with
    | top =>
      cases h
      exact ⟨[], rfl, by simp⟩
    | coe t =>
      simp only at h
      split_ifs at h with hl
      · obtain ⟨⟨_, target⟩, _, h⟩ := Py.bind_eq_ok.1 h
        simp only [addEvent_eq_addAll, Py.ok_bind] at h
        obtain ⟨timeline, _, h⟩ := Py.bind_eq_ok.1 h
        obtain ⟨⟨b, d⟩, _, h⟩ := Py.bind_eq_ok.1 h
        obtain ⟨periods, _, h⟩ := Py.bind_eq_ok.1 h
        obtain ⟨next, _, h⟩ := Py.bind_eq_ok.1 h
        obtain ⟨autos, rfl, h2⟩ := ih _ _ _ h
        refine ⟨(t, target) :: autos, ?_, ?_⟩
        · rw [List.map_cons, ← addAll_append]
          rfl
        · intro x hx
          rcases List.mem_cons.1 hx with rfl | hx
          · exact hl
          · exact h2 x hx
      · cases h
        exact ⟨[], rfl, by simp⟩

theorem addAutos_adds {fuel : ℕ} {rb rb' : RotationBuilder} {last : Option ℚ}
    (h : rb.addAutos fuel last = .ok rb') :
    ∃ skill delay, ∃ autos : List (ℚ × String), rb.autoSkill = .ok skill ∧
      autoDelay skill = .ok delay ∧
      rb' = rb.addAll (autos.map (fun x => autoEvent skill x.1 delay x.2)) ∧
      ∀ l, last = some l → ∀ x ∈ autos, x.1 + delay < l := by
  unfold addAutos at h
  obtain ⟨ts, _, h⟩ := Py.bind_eq_ok.1 h
  obtain ⟨skill, hs, h⟩ := Py.bind_eq_ok.1 h
  obtain ⟨first, _, h⟩ := Py.bind_eq_ok.1 h
  cases first with
  | none => cases h
  | some first =>
    simp only at h
    obtain ⟨delay, hd, h⟩ := Py.bind_eq_ok.1 h
    split at h
    · cases h
    · rename_i last' hlast
      obtain ⟨autos, h1, h2⟩ := autosLoop_adds _ _ _ _ _ _ _ _ _ _ h
      refine ⟨skill, delay, autos, hs, hd, h1, ?_⟩
      rintro l rfl
      simp only [Option.some.injEq] at hlast
      rw [hlast]
      exact h2

/-! ## Finishing -/

theorem shiftTimelines_spec {rb rb' : RotationBuilder} (hg : rb.events.Good)
    (h : rb.shiftTimelines = .ok rb') :
    (rb.events.getFirstDamageTime = .ok none ∧ rb' = rb) ∨
    ∃ first out, rb.events.getFirstDamageTime = .ok (some first) ∧ out.Perm rb.events.q ∧
      out.Pairwise Before ∧ drain rb.events.q.length rb.events = .ok out ∧
      rb' = { rb with
        presses := rb.presses.map (fun p => { p with t := p.t - first })
        events := (out.map (shiftedEvent first)).foldl Events.push {} } := by
  unfold shiftTimelines at h
  obtain ⟨first, h1, h⟩ := Py.bind_eq_ok.1 h
  cases first with
  | none =>
    cases h
    exact .inl ⟨h1, rfl⟩
  | some first =>
    simp only at h
    obtain ⟨out, g1, g2, g3, g4⟩ := shiftLoop_spec first rb.events.q.length rb.events {} hg.1 le_rfl
    rw [g4] at h
    cases h
    exact .inr ⟨first, out, h1, g2, g3, g1, rfl⟩

theorem removeDamage_spec {rb rb' : RotationBuilder} (hg : rb.events.Good)
    (h : rb.removeDamageDuringDowntime = .ok rb') :
    ∃ out as, out.Perm rb.events.q ∧ out.Pairwise Before ∧
      drain rb.events.q.length rb.events = .ok out ∧ flatM rb.keepOne out = .ok as ∧
      rb' = { rb with events := as.foldl Events.push {} } := by
  unfold removeDamageDuringDowntime at h
  obtain ⟨evs, h1, h⟩ := Py.bind_eq_ok.1 h
  cases h
  obtain ⟨out, g1, g2, g3, g4⟩ := removeLoop_spec rb rb.events.q.length rb.events {} hg.1 le_rfl
  rw [g4] at h1
  obtain ⟨as, h2, h1⟩ := Py.bind_eq_ok.1 h1
  cases h1
  exact ⟨out, as, g2, g3, g1, h2, rfl⟩

/-- `e'` is `e` moved `δ` earlier, with fewer targets. -/
structure Derived (δ : ℚ) (e e' : Event) : Prop where
  primary : e'.primary = e.primary - δ
  secondary : e'.secondary = e.secondary.map (· - δ)
  skill : e'.skill = e.skill
  modifier : e'.modifier = e.modifier
  buffs : e'.snapshotBuffs = e.snapshotBuffs
  debuffs : e'.snapshotDebuffs = e.snapshotDebuffs
  targets : e'.targets.Sublist e.targets

theorem shifted_derived {δ : ℚ} {e e' : Event} (hn : e.secondary ≠ some e.primary)
    (h : NewEvent.Becomes (shiftedEvent δ e) e') :
    Derived δ e e' ∧ e'.targets = e.targets ∧
      e'.priority = e.priority - Utils.transformTimeToPrio δ := by
  obtain ⟨h1, h2, h3, h4, h5, _, _, _, h9⟩ := h
  have hns : ¬ (shiftedEvent δ e).secondary = some (shiftedEvent δ e).primary := by
    intro hc
    apply hn
    simp only [shiftedEvent, Option.map_eq_some_iff] at hc
    obtain ⟨x, hx, hc⟩ := hc
    rw [hx]
    congr 1
    linarith
  rw [if_neg hns] at h9
  obtain ⟨h9, h10, h11⟩ := h9
  exact ⟨⟨h2, h9, h3, h4, h10, h11, by rw [h5]; exact List.Sublist.refl _⟩, h5, h1⟩

theorem validTargets_sublist {rb : RotationBuilder} {e : Event} {ts ts' : List String}
    (h : rb.validTargets e ts = .ok ts') : ts'.Sublist ts := by
  induction ts generalizing ts' with
  | nil =>
    cases h
    exact List.Sublist.refl _
  | cons t ts ih =>
    unfold validTargets at h
    obtain ⟨keep, _, h⟩ := Py.bind_eq_ok.1 h
    obtain ⟨rest, h2, h⟩ := Py.bind_eq_ok.1 h
    cases h
    cases keep
    · exact (ih h2).cons _
    · exact (ih h2).cons₂ _

theorem kept_derived {e e' : Event} {ts : List String} (hn : e.secondary ≠ some e.primary)
    (hs : ts.Sublist e.targets) (h : NewEvent.Becomes (keptEvent e ts) e') :
    Derived 0 e e' ∧ e'.targets = ts ∧ e'.priority = e.priority := by
  obtain ⟨h1, h2, h3, h4, h5, _, _, _, h9⟩ := h
  have hns : ¬ (keptEvent e ts).secondary = some (keptEvent e ts).primary := hn
  rw [if_neg hns] at h9
  obtain ⟨h9, h10, h11⟩ := h9
  refine ⟨⟨by rw [h2]; simp [keptEvent], by rw [h9]; simp [keptEvent], h3, h4, h10, h11,
    by rw [h5]; exact hs⟩, h5, h1⟩

theorem mem_keepOne {rb : RotationBuilder} {e : Event} {as : List NewEvent} {a : NewEvent}
    (h : rb.keepOne e = .ok as) (ha : a ∈ as) :
    ∃ ts, rb.validTargets e e.targets = .ok ts ∧ ts ≠ [] ∧ a = keptEvent e ts := by
  unfold keepOne at h
  obtain ⟨ts, h1, h⟩ := Py.bind_eq_ok.1 h
  cases h
  split_ifs at ha with hl
  · refine ⟨ts, h1, ?_, by simpa using ha⟩
    rintro rfl
    simp at hl
  · simp at ha

/-- Replace the timeline and the presses. -/
def withTimeline (rb : RotationBuilder) (evs : Events) (presses : List Press) : RotationBuilder :=
  { rb with events := evs, presses := presses }

/-- Every event of the finished timeline comes from a collected one. -/
theorem finish_spec {rb rb' : RotationBuilder} (hg : rb.events.Good) (h : finish rb = .ok rb') :
    ∃ δ, (rb.fightStart ≠ none → δ = 0) ∧
      (rb.fightStart = none → rb.events.getFirstDamageTime = .ok (some δ) ∨
        (rb.events.getFirstDamageTime = .ok none ∧ δ = 0)) ∧
      (∀ e' ∈ rb'.events.q, ∃ e ∈ rb.events.q, Derived δ e e') ∧
      rb'.presses = sortBy (·.t) (rb.presses.map (fun p => { p with t := p.t - δ })) ∧
      rb'.events.Good ∧
      rb' = rb.withTimeline rb'.events rb'.presses := by
  unfold finish at h
  obtain ⟨r1, h1, h⟩ := Py.bind_eq_ok.1 h
  obtain ⟨r2, h2, h⟩ := Py.bind_eq_ok.1 h
  cases h
  obtain ⟨δ, hd, hd', hr1, hr2, hr3, hr4⟩ : ∃ δ, (rb.fightStart ≠ none → δ = 0) ∧
      (rb.fightStart = none → rb.events.getFirstDamageTime = .ok (some δ) ∨
        (rb.events.getFirstDamageTime = .ok none ∧ δ = 0)) ∧
      (∀ e' ∈ r1.events.q, ∃ e ∈ rb.events.q, Derived δ e e') ∧
      r1.presses = rb.presses.map (fun p => { p with t := p.t - δ }) ∧ r1.events.Good ∧
      r1 = rb.withTimeline r1.events r1.presses := by
    have hrefl : ∀ e : Event, Derived 0 e e := fun e =>
      ⟨by simp, by simp, rfl, rfl, rfl, rfl, List.Sublist.refl _⟩
    by_cases hf : rb.fightStart = none
    · rw [shiftIfNeeded, if_pos (by rw [hf]; rfl)] at h1
      rcases shiftTimelines_spec hg h1 with ⟨hn, rfl⟩ | ⟨first, out, g1, g2, g3, _, rfl⟩
      · exact ⟨0, fun _ => rfl, fun _ => .inr ⟨hn, rfl⟩, fun e he => ⟨e, he, hrefl e⟩,
          by simp, hg, rfl⟩
      · refine ⟨first, fun h => absurd hf h, fun _ => .inl g1, ?_, rfl,
          Events.good_push Events.good_empty _, rfl⟩
        intro e' he'
        obtain ⟨a, ha, hb⟩ := mem_pushes he'
        obtain ⟨e, he, rfl⟩ := List.mem_map.1 ha
        have he2 := g2.mem_iff.1 he
        exact ⟨e, he2, (shifted_derived (hg.2 e he2) hb).1⟩
    · rw [shiftIfNeeded, if_neg (by simpa using hf)] at h1
      cases h1
      exact ⟨0, fun _ => rfl, fun h => absurd h hf, fun e he => ⟨e, he, hrefl e⟩, by simp, hg, rfl⟩
  obtain ⟨out, as, k1, _, _, k3, rfl⟩ := removeDamage_spec hr3 h2
  refine ⟨δ, hd, hd', ?_, by simp only; rw [hr2], Events.good_push Events.good_empty _, ?_⟩
  · intro e' he'
    obtain ⟨a, ha, hb⟩ := mem_pushes he'
    obtain ⟨e1, he1, x, hx, hax⟩ := (mem_flatM k3).1 ha
    obtain ⟨ts, g1, _, rfl⟩ := mem_keepOne hx hax
    have he1' := k1.mem_iff.1 he1
    obtain ⟨d1, _, _⟩ := kept_derived (hr3.2 e1 he1') (validTargets_sublist g1) hb
    obtain ⟨e, he, d2⟩ := hr1 e1 he1'
    refine ⟨e, he, ⟨?_, ?_, ?_, ?_, ?_, ?_, ?_⟩⟩
    · rw [d1.primary, d2.primary]; ring
    · rw [d1.secondary, d2.secondary]
      cases e.secondary <;> simp
    · rw [d1.skill, d2.skill]
    · rw [d1.modifier, d2.modifier]
    · rw [d1.buffs, d2.buffs]
    · rw [d1.debuffs, d2.debuffs]
    · exact d1.targets.trans d2.targets
  · rw [hr4]
    rfl

theorem start_fields (rb : RotationBuilder) :
    rb.start.stats = rb.stats ∧ rb.start.lib = rb.lib ∧ rb.start.snapDots = rb.snapDots ∧
    rb.start.enableAutos = rb.enableAutos ∧ rb.start.ignoreTrailingDots = rb.ignoreTrailingDots ∧
    rb.start.fightStart = rb.fightStart ∧ rb.start.priority = rb.priority ∧
    rb.start.defaultTarget = rb.defaultTarget ∧ rb.start.allTargets = rb.allTargets ∧
    rb.start.qTimed = rb.qTimed ∧ rb.start.qSequence = rb.qSequence ∧ rb.start.qDot = rb.qDot ∧
    rb.start.presses = [] ∧ rb.start.events = {} ∧ rb.start.timestamps = rb.timestamps := by
  unfold start processDowntimeWindows
  cases rb.downtime <;> simp

/-- The parts of a run of `get_skill_timing`. -/
structure Run (fuel : ℕ) (rb rb' : RotationBuilder) where
  log : Log
  dotAdds : List NewEvent
  autoAdds : List NewEvent
  queue : rb.start.queueLog = .ok log
  dots : allDotAdds rb.snapDots (rb.start.apply log).lastFor (addDots rb.qDot log.dots) = .ok dotAdds
  autos : if rb.enableAutos then ((rb.start.apply log).addAll dotAdds).addAutos fuel
      (rb.start.apply log).lastFor = .ok (((rb.start.apply log).addAll dotAdds).addAll autoAdds) ∧
      ∃ skill delay, ∃ as : List (ℚ × String), rb.autoSkill = .ok skill ∧
        autoDelay skill = .ok delay ∧ autoAdds = as.map (fun x => autoEvent skill x.1 delay x.2) ∧
        ∀ l, (rb.start.apply log).lastFor = some l → ∀ x ∈ as, x.1 + delay < l
    else autoAdds = []
  finished : finish (((rb.start.apply log).addAll dotAdds).addAll autoAdds) = .ok rb'

theorem run_of_ok {fuel : ℕ} {rb rb' : RotationBuilder} (h : rb.getSkillTiming fuel = .ok rb') :
    Nonempty (Run fuel rb rb') := by
  rw [getSkillTiming_eq] at h
  obtain ⟨l, h1, h⟩ := Py.bind_eq_ok.1 h
  obtain ⟨as, h2, h⟩ := Py.bind_eq_ok.1 h
  cases ha : rb.enableAutos with
  | false =>
    simp only [ha, Bool.false_eq_true, if_false, Py.pure_eq, Py.ok_bind] at h
    exact ⟨⟨l, as, [], h1, h2, by simp [ha], by simpa using h⟩⟩
  | true =>
    simp only [ha, if_true] at h
    obtain ⟨r, h3, h⟩ := Py.bind_eq_ok.1 h
    obtain ⟨skill, delay, autos, g1, g2, rfl, g3⟩ := addAutos_adds h3
    have g1' : rb.autoSkill = .ok skill := by
      rw [← g1]
      unfold autoSkill
      obtain ⟨e1, e2, _⟩ := start_fields rb
      change _ = (do
        if ← rb.start.lib.hasSkill "Shot" rb.start.stats.jobClass then
          rb.start.lib.getSkill "Shot" rb.start.stats.jobClass
        else rb.start.lib.getSkill "Auto" rb.start.stats.jobClass)
      rw [e1, e2]
    exact ⟨⟨l, as, _, h1, h2, by rw [if_pos ha]; exact ⟨h3, skill, delay, autos, g1', g2, rfl, g3⟩, h⟩⟩

variable {fuel : ℕ} {rb rb' : RotationBuilder}

/-- All events collected in a run. -/
def Run.adds (r : Run fuel rb rb') : List NewEvent := r.log.adds ++ r.dotAdds ++ r.autoAdds

/-- The builder before finishing. -/
def Run.collected (r : Run fuel rb rb') : RotationBuilder :=
  ((rb.start.apply r.log).addAll r.dotAdds).addAll r.autoAdds

theorem Run.collected_events (r : Run fuel rb rb') :
    r.collected.events = r.adds.foldl Events.push {} := by
  unfold Run.collected Run.adds addAll apply
  simp only [List.foldl_append]
  rw [(start_fields rb).2.2.2.2.2.2.2.2.2.2.2.2.2.1]

theorem Run.good (r : Run fuel rb rb') : r.collected.events.Good := by
  rw [r.collected_events]
  exact Events.good_push Events.good_empty _

/-- Every event of the timeline comes from a collected one. -/
theorem Run.spec (r : Run fuel rb rb') :
    ∃ δ, (rb.fightStart ≠ none → δ = 0) ∧
      (rb.fightStart = none → r.collected.events.getFirstDamageTime = .ok (some δ) ∨
        (r.collected.events.getFirstDamageTime = .ok none ∧ δ = 0)) ∧
      (∀ e' ∈ rb'.events.q, ∃ e ∈ r.collected.events.q, Derived δ e e') ∧
      rb'.presses = sortBy (·.t) (r.log.presses.map (fun p => { p with t := p.t - δ })) ∧
      rb'.events.Good ∧
      rb' = r.collected.withTimeline rb'.events rb'.presses := by
  have h := finish_spec (rb := r.collected) r.good r.finished
  have hf : r.collected.fightStart = rb.fightStart := (start_fields rb).2.2.2.2.2.1
  have hp : r.collected.presses = r.log.presses := by
    unfold Run.collected addAll apply
    simp only
    rw [(start_fields rb).2.2.2.2.2.2.2.2.2.2.2.2.1]
    rfl
  rw [hf, hp] at h
  exact h

end RotationBuilder

end Ama
