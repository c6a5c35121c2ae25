import Verif.Lemmas.AutosTimeline
import Verif.Examples.Rotation

/-!
# Properties of auto-attacks (C35)
-/

namespace Ama

open Spec RotationBuilder

variable {fuel : ℕ} {rb rb' : RotationBuilder}

/-! ## C35: auto-attacks -/

/-- C35: with auto-attacks enabled the timeline consists of the events of the presses and dots, and of
auto-attacks: the first at the time of the first damage, each further one a (hasted) weapon delay after
the one before or, if that is in a downtime or in one of the periods without auto-attacks, at the end of
these; they stop before the last event.  Their target is that of the latest press.  Everything is moved
`δ` earlier at the end, and auto-attacks on a target in downtime are dropped. -/
theorem C35_timeline (h : rb.getSkillTiming fuel = .ok rb') (ha : rb.enableAutos = true) :
    ∃ rb₁ skill delay first l periods, ∃ autos : List (ℚ × String), ∃ δ,
      beforeAutos rb = .ok rb₁ ∧ AutoSkill rb skill delay ∧ IsLeast (damageTimes rb₁.events) first ∧
      LastEvent rb rb₁ l ∧ (autos ≠ [] → rb₁.getNoAutoPeriods = .ok periods) ∧
      Autos rb₁ skill delay l periods rb₁.events.q first autos ∧
      (∀ l₁ a l₂, autos = l₁ ++ a :: l₂ → (∀ s ∈ l₁, s.1 ≤ a.1) → TargetAt rb₁.timestamps a.1 a.2) ∧
      (rb.fightStart ≠ none → δ = 0) ∧
      (∀ e' ∈ rb'.events.q, (∃ e ∈ rb₁.events.q, Shifted δ e e') ∨
        ∃ a ∈ autos, AutoEvent skill delay (a.1 - δ) a.2 e') ∧
      (∀ a ∈ autos, ∀ e, AutoEvent skill delay (a.1 - δ) a.2 e → Unaffected rb' e a.2 →
        ∃ e' ∈ rb'.events.q, AutoEvent skill delay (a.1 - δ) a.2 e') := by
  obtain ⟨r⟩ := run_of_ok h
  obtain ⟨hq0, hq1⟩ := beforeAutos_eq r
  have hau := r.autos
  rw [if_pos ha] at hau
  obtain ⟨hadd, _⟩ := hau
  have hcol0 : r.collected = ((rb.start.apply r.log).addAll r.dotAdds).addAll r.autoAdds := rfl
  obtain ⟨rb₁, hrb₁⟩ : ∃ x, x = (rb.start.apply r.log).addAll r.dotAdds := ⟨_, rfl⟩
  rw [← hrb₁] at hadd hq1 hcol0
  have hgood : rb₁.events.Good := by
    have : rb₁.events = (r.log.adds ++ r.dotAdds).foldl Events.push {} := by
      rw [hrb₁]
      unfold addAll apply
      simp only [List.foldl_append]
      rw [(start_fields rb).2.2.2.2.2.2.2.2.2.2.2.2.2.1]
    rw [this]
    exact Events.good_push Events.good_empty _
  obtain ⟨skill, delay, first, l, periods, autos, g1, g2, g3, g4, g5, g6, g7, g8⟩ :=
    addAutos_spec hgood.1 hadd
  obtain ⟨δ, k1, _, k3, k4⟩ := finish_kept r.good r.finished
  obtain ⟨_, _, _, _, _, _, hrb'⟩ := r.spec
  have hcol : r.collected = rb₁.addAll (autos.map (fun x => autoEvent skill x.1 delay x.2)) := by
    rw [hcol0, g7]
  have hlib : rb₁.lib = rb.lib ∧ rb₁.stats = rb.stats := by
    obtain ⟨e1, e2, _⟩ := start_fields rb
    rw [hrb₁]
    exact ⟨e2, e1⟩
  have hskill : AutoSkill rb skill delay := by
    have := autoSkill_spec g1 g2
    unfold AutoSkill at this ⊢
    rwa [hlib.1, hlib.2] at this
  obtain ⟨hok2, es, hes, hperm⟩ := pushes_spec (autos.map (fun x => autoEvent skill x.1 delay x.2))
    rb₁.events hgood.1
  have hes2 := eventsOf_forall₂ hes
  rw [List.forall₂_map_left_iff] at hes2
  have hmem : ∀ e, e ∈ r.collected.events.q ↔ e ∈ es ∨ e ∈ rb₁.events.q := by
    intro e
    rw [hcol, addAll_events, hperm.mem_iff, List.mem_append]
  refine ⟨rb₁, skill, delay, first, l, periods, autos, δ, hq1, hskill, g3, ?_, g5, g6, g8, ?_, ?_, ?_⟩
  · have hig : (rb.start.apply r.log).ignoreTrailingDots = rb.ignoreTrailingDots :=
      (start_fields rb).2.2.2.2.1
    constructor
    · intro hf
      rcases g4 with g4 | ⟨_, g4⟩
      · unfold lastFor at g4
        rw [hig, hf] at g4
        cases g4
      · exact g4
    · intro ht
      refine ⟨_, hq0, fun hne => ?_⟩
      rcases lastEvent_spec (rb.start.apply r.log).events with ⟨_, k⟩ | ⟨l', k1, k2⟩
      · exact absurd k hne
      · have hl : (rb.start.apply r.log).lastFor = some l' := by
          unfold lastFor
          rw [hig, if_pos ht, k1]
        rcases g4 with g4 | ⟨g4, _⟩
        · rw [hl] at g4
          cases g4
          exact k2
        · rw [hl] at g4
          cases g4
  · intro hf
    refine k1 ?_
    have : r.collected.fightStart = rb.fightStart := (start_fields rb).2.2.2.2.2.1
    intro h0
    exact hf (this ▸ h0)
  · intro e' he'
    obtain ⟨h1, e, he, hs⟩ := k3 e' he'
    rcases (hmem e).1 he with he | he
    · obtain ⟨a, ha1, ha2⟩ := forall₂_mem_right' hes2 he
      exact .inr ⟨a, ha1, shifted_auto (autoEvent_becomes ha2) hs h1⟩
    · exact .inl ⟨e, he, hs⟩
  · intro a ha1 e0 he0 hu
    obtain ⟨e, he, hb⟩ := forall₂_mem_of_left hes2 ha1
    have hae := autoEvent_becomes hb
    obtain ⟨e1, h1, h2, h3⟩ := k4 e ((hmem e).2 (.inl he))
    have hae1 := shifted_auto hae h2 (by rw [h1, hae.targets]; simp)
    have hdt : rb'.downtime = r.collected.downtime :=
      (congrArg RotationBuilder.downtime hrb').trans rfl
    obtain ⟨e', he', hs', ht'⟩ := h3 a.2 (by rw [hae.targets]; simp)
      ((unaffected_moved hdt (by rw [hae1.skill, he0.skill]) (by rw [hae1.modifier, he0.modifier])
        (by rw [hae1.primary, he0.primary]) (by rw [hae1.applied, he0.applied])).1 hu)
    exact ⟨e', he', shifted_auto hae hs' (List.ne_nil_of_mem ht')⟩

/-- A hit at 0 s, Haste at 1 s, a spell from 3 s, then hits on B, which is away from 8 s to 9 s.  (All
times in the result are half a second earlier.)  The second auto-attack would come at 3.94 s, during the
cast, and is moved to its end at 4.46 s; the following ones come 2.58 s after each other. -/
example : ∃ rb rb', Built rb ∧ NonnegDelays rb.lib ∧ rb.getSkillTiming 100 = .ok rb' ∧
    rb.enableAutos = true ∧
    (sortBy (·.1) ((rb'.events.q.filter (fun e => e.skill.name = "Auto")).map
      (fun e => (e.primary, e.targets)))) =
      [(0, ["Default Target"]), (3960, ["Default Target"]), (6540, ["B"]), (9120, ["B"]),
        (11700, ["B"])] :=
  Ex.run_of (autos := true) (downtime := .dict [("B", [⟨8, 9, none⟩])])
    [Ex.at_ 0 "Hit", Ex.at_ 1 "Haste", Ex.at_ 3 "Spell", Ex.at_ 6 "Hit" (some "B"),
      Ex.at_ 15 "Hit" (some "B")] 100
    (fun rb rb' => rb.enableAutos = true ∧
      (sortBy (·.1) ((rb'.events.q.filter (fun e => e.skill.name = "Auto")).map
        (fun e => (e.primary, e.targets)))) =
        [(0, ["Default Target"]), (3960, ["Default Target"]), (6540, ["B"]), (9120, ["B"]),
          (11700, ["B"])]) (h := by decide +kernel)

section
variable {skill : Skill} {delay last : ℚ} {periods : List (ℚ × WithTop ℚ)} {evs : List Event}
  {t : WithTop ℚ} {autos : List (ℚ × String)}

/-- C35: the time between two auto-attacks is at least the weapon delay as shortened by the effects at
the first of them. -/
theorem C35_spacing (h : Autos rb skill delay last periods evs t autos) :
    autos.IsChain (fun a b => ∃ buffs debuffs, ∃ earlier : List Event,
      (∀ e ∈ earlier, e.skill = skill) ∧ SpeedAt rb (earlier ++ evs) a.1 skill buffs debuffs ∧
      a.1 + autoStep rb buffs debuffs ≤ b.1) := by
  refine (autos_chain h).imp ?_
  rintro a b ⟨bf, df, t1, evs', k1, k2, k3, k4⟩
  refine ⟨bf, df, evs', k2, k1, (forwarded_le k3).trans ?_⟩
  exact_mod_cast skipped_le k4

/-- C35: auto-attacks start at the given time, come one after the other, and are applied before the
last event. -/
theorem C35_order (hw : 0 ≤ rb.stats.weaponDelay)
    (ht : rb.stats.processed.traitAutoAttackDelayReduction ≤ 1)
    (hsk : ∀ e ∈ evs, Moderate e.skill) (ha : Moderate skill)
    (h : Autos rb skill delay last periods evs t autos) :
    (∀ a, autos.head? = some a → t = a.1) ∧ autos.Pairwise (fun a b => a.1 ≤ b.1) ∧
      ∀ a ∈ autos, a.1 + delay < last :=
  ⟨fun _ ha => autos_head h ha, (autos_mono hw ht hsk ha h).2, autos_before h⟩

/-- C35 (`_partial`: missing are overlapping periods and the first auto-attack, where the claim is
false, see `C35_overlap_refuted` and `C35_first_refuted`).  If the periods without auto-attacks do not
overlap, then no auto-attack after the first is strictly inside one of them. -/
theorem C35_outside_partial (h : Autos rb skill delay last periods evs t autos)
    (hd : ∀ p ∈ periods, ∀ q ∈ periods, p = q ∨ p.2 ≤ (q.1 : WithTop ℚ) ∨ q.2 ≤ (p.1 : WithTop ℚ)) :
    ∀ a ∈ autos.tail, ∀ p ∈ periods, ¬ (p.1 < a.1 ∧ (a.1 : WithTop ℚ) < p.2) := by
  have hc := autos_chain h
  have key : ∀ a ∈ autos.tail, ∃ t1, Skipped periods t1 a.1 := by
    clear hd h
    induction autos with
    | nil => simp
    | cons a l ih =>
      cases l with
      | nil => simp
      | cons b l =>
        obtain ⟨⟨_, _, t1, _, _, _, _, k⟩, hc'⟩ := List.isChain_cons_cons.1 hc
        intro x hx
        rcases List.mem_cons.1 hx with rfl | hx
        · exact ⟨t1, k⟩
        · exact ih hc' x hx
  rintro a ha q hq ⟨h1, h2⟩
  obtain ⟨t1, hs⟩ := key a ha
  rcases hs with ⟨g1, g2⟩ | ⟨⟨p, hp, g1, g2, g3⟩, g4⟩
  · have g2' : a.1 = t1 := by exact_mod_cast g2
    exact g1 q hq ⟨by rw [← g2']; exact h1.le, by rw [← g2']; exact h2.le⟩
  · rcases hd p hp q hq with rfl | hd | hd
    · rw [g3] at h2
      exact lt_irrefl _ h2
    · rw [← g3] at hd
      exact absurd h1 (not_lt.2 (by exact_mod_cast hd))
    · have h3 : (p.1 : WithTop ℚ) ≤ t1 := by exact_mod_cast g1
      rw [g3] at h2
      exact lt_irrefl _ (lt_of_lt_of_le (lt_of_le_of_lt (h3.trans g2) h2) hd)

end

/-- In the timeline an auto-attack happens between the press of a spell and its snapshot, 1.45 s
later. -/
def Ex.AutoDuringCast (rb' : RotationBuilder) : Prop :=
  ∃ p ∈ rb'.presses, ∃ s ∈ rb'.events.q, ∃ e ∈ rb'.events.q, p.name = "Spell" ∧
    s.skill = Ex.spell ∧ e.skill = Ex.auto ∧ s.primary = p.t + 1450 ∧ p.t < e.primary ∧
    e.primary < s.primary

instance (rb' : RotationBuilder) : Decidable (Ex.AutoDuringCast rb') := by
  unfold Ex.AutoDuringCast
  infer_instance

/-- C35 is false for the first auto-attack: it happens at the first damage even during a cast. -/
theorem C35_first_refuted :
    ∃ rb rb', Built rb ∧ NonnegDelays rb.lib ∧ rb.getSkillTiming 100 = .ok rb' ∧
      Ex.AutoDuringCast rb' :=
  Ex.run_of (autos := true) (fightStart := some 0) [Ex.at_ 0 "Hit", Ex.at_ (3 / 10) "Spell"] 100
    (fun _ rb' => Ex.AutoDuringCast rb') (h := by decide +kernel)

/-- C35 is false for casts queued with `add_next`: they are not considered. -/
theorem C35_sequence_refuted :
    ∃ rb rb', Built rb ∧ NonnegDelays rb.lib ∧ rb.getSkillTiming 100 = .ok rb' ∧
      rb.qTimed = [] ∧ rb.getNoAutoPeriods = .ok [] ∧ Ex.AutoDuringCast rb' :=
  Ex.run_of (autos := true) (fightStart := some 0) [Ex.next "Hit", Ex.next "Spell" 6] 100
    (fun rb rb' => rb.qTimed = [] ∧ rb.getNoAutoPeriods = .ok [] ∧ Ex.AutoDuringCast rb')
    (h := by decide +kernel)

/-- C35 is false for overlapping casts: the end of the first is inside the second. -/
theorem C35_overlap_refuted :
    ∃ rb rb', Built rb ∧ NonnegDelays rb.lib ∧ rb.getSkillTiming 100 = .ok rb' ∧
      Ex.AutoDuringCast rb' ∧ sortBy id ((rb'.events.q.filter (fun e => e.skill.name = "Auto")).map
        (·.primary)) = [500, 4950, 8390, 11830] :=
  Ex.run_of (autos := true) (fightStart := some 0)
    [Ex.at_ 0 "Hit", Ex.at_ 3 "Spell", Ex.at_ 4 "Spell", Ex.at_ 15 "Hit"] 100
    (fun _ rb' => Ex.AutoDuringCast rb' ∧ sortBy id ((rb'.events.q.filter
      (fun e => e.skill.name = "Auto")).map (·.primary)) = [500, 4950, 8390, 11830])
    (h := by decide +kernel)

/-- The weapon delay is not shortened as it should be by an effect that only affects auto-attacks:
whether an effect is allowed is decided for the skill that gives it, here Rhythm, instead of for the
auto-attack.  Rhythm, from 1 s to 11 s, shortens the delay of auto-attacks from 3.44 s to 2.58 s. -/
theorem C35_allowlist_refuted :
    ∃ rb rb', Built rb ∧ NonnegDelays rb.lib ∧ rb.getSkillTiming 100 = .ok rb' ∧
      (∃ e ∈ rb'.events.q, e.primary = 1000 ∧ ∃ spec, e.skill.getBuffSpec e.modifier = .ok (some spec) ∧
        spec.autoAttackDelayReduction = 1 / 4 ∧ spec.duration = ((10000 : ℚ) : WithTop ℚ) ∧
        Allowed Ex.auto.toSkillCore e.skill.name spec) ∧
      sortBy id ((rb'.events.q.filter (fun e => e.skill.name = "Auto")).map (·.primary)) =
        [500, 3940, 7380, 10820, 14260] := by
  obtain ⟨rb, rb', h1, h2, h3, ⟨e, he, h4, h5⟩, h6⟩ :=
    Ex.run_of (autos := true) (fightStart := some 0)
      [Ex.at_ 0 "Hit", Ex.at_ 1 "Rhythm", Ex.at_ 15 "Hit"] 100
      (fun _ rb' => (∃ e ∈ rb'.events.q, e.primary = 1000 ∧ e.skill = Ex.rhythm ∧ e.modifier = {}) ∧
        sortBy id ((rb'.events.q.filter (fun e => e.skill.name = "Auto")).map (·.primary)) =
          [500, 3940, 7380, 10820, 14260]) (h := by decide +kernel)
  refine ⟨rb, rb', h1, h2, h3, ⟨e, he, h4, ?_⟩, h6⟩
  rw [h5.1, h5.2]
  refine ⟨_, rfl, rfl, rfl, ?_, ?_⟩
  · decide
  · intro al hal
    cases hal
    decide

end Ama
