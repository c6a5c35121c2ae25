import Verif.Lemmas.DamageLogs
import Verif.Lemmas.DamageEffects
import Verif.Examples.DamageConditions

/-!
# Properties of conditions, combos and gauges in the result of the damage builder (C68, C69, C70)
-/

namespace Ama

open Spec DamageBuilder

variable {db db' : DamageBuilder} {events : Events} {xs : List DamageInstance}

/-! ## C68: the conditions of an instance -/

/-- C68.  The conditions with which the damage of a hit is computed are exactly: those of the event,
what the gauges say (when the skill snapshots them, or when it is applied), the outcome of its combo and
what positional inference adds (both when it is first processed), those of the buffs and debuffs it
gets (when these are taken), and the number of the target if the skill has several. -/
theorem C68_conditions (ht : Timeline events) (hu : ∀ e ∈ events.q, Untouched e)
    (h : db.getDamageInstances events = .ok (xs, db')) :
    ∃ tr s, Processes db events tr s ∧
      ∃ candidates, List.Forall₂ (fun hit x => hit.Yields x ∧
          ∃ src : Sources, x.modifier.withCondition = src.conditions hit ∧ src.From tr hit x)
        (hitsOf events.q) candidates ∧ xs.Perm (candidates.filter deals) := by
  obtain ⟨tr, s, ⟨h1, h2⟩, rfl, -⟩ := getDamageInstances_ok h
  obtain ⟨ys, ⟨zs, h3, h4⟩, h5⟩ := reaches_conds h1 (timeline_ok ht) h2
  refine ⟨tr, s, ⟨h1, h2⟩, zs, ?_, ?_⟩
  · refine List.Forall₂.imp ?_ (forall₂_with_mem h3)
    rintro hit x ⟨hmem, ⟨hy, -⟩, hx⟩
    have hue := hu _ (mem_hitsOf hmem)
    obtain ⟨src, hc, hf⟩ := hx (.inr hue)
    refine ⟨hy, src, hc, ?_, ?_, hf.buffs, hf.debuffs⟩
    · have := hf.gauge
      rw [hue.gauges] at this
      simpa using this
    · have := hf.combo
      rw [hue.combo] at this
      simp only [Bool.false_eq_true, if_false] at this
      obtain ⟨s1, m, a1, -, a2, a3, a4, a5⟩ := this
      exact ⟨s1, m, a1, a2, a3, a4, a5⟩
  · refine (sortBy_perm _ _).trans ((by simpa using h5 : s.q.Perm (ys.filter deals)).trans ?_)
    exact (h4.filter _).symm

/-- A gain, a combo of two skills, a spender that snapshots the gauge when it is pressed, and one that
does not and is applied after the next gain. -/
example : ∃ events xs db', Timeline events ∧ (∀ e ∈ events.q, Untouched e) ∧
    Ex.tracking.getDamageInstances events = .ok (xs, db') ∧
      xs.map (fun x => (x.skill.name, x.time, Ex.labels x)) =
        [("First", 600, []), ("Second", 1100, []), ("Second", 1300, ["No Combo"]),
         ("Spender", 2500, ["2 Fists"]), ("Late spender", 2600, ["3 Fists"])] :=
  Ex.conditions_of
    [Ex.ev 100 600 Ex.first, Ex.ev 1000 1000 Ex.gain, Ex.ev 1010 1100 Ex.second,
     Ex.ev 1020 1300 Ex.second, Ex.ev 2000 2500 Ex.spender, Ex.ev 2010 2600 Ex.lateSpender,
     Ex.ev 2020 2300 Ex.gain]
    (fun xs => xs.map (fun x => (x.skill.name, x.time, Ex.labels x)) =
        [("First", 600, []), ("Second", 1100, []), ("Second", 1300, ["No Combo"]),
         ("Spender", 2500, ["2 Fists"]), ("Late spender", 2600, ["3 Fists"])])
    (h := by decide +kernel)

/-- C68.  The events of a timeline that a rotation builder makes are untouched, so the theorems of this
file apply to it. -/
theorem C68_untouched {rb rb' : RotationBuilder} {fuel : ℕ} (h : rb.getSkillTiming fuel = .ok rb') :
    Timeline rb'.events ∧ ∀ e ∈ rb'.events.q, Untouched e :=
  ⟨.inl ⟨fuel, rb', rb, h, rfl⟩, timing_untouched h⟩

/-! ## C69: combos -/

/-- C69.  The combo of every event is checked exactly once, in the order of the times at which the
events are processed, and its outcome (see C21) is a condition of every hit of that event, however many
targets it has and whether it is applied at once or later. -/
theorem C69_combos (ht : Timeline events) (hu : ∀ e ∈ events.q, Untouched e)
    (h : db.getDamageInstances events = .ok (xs, db')) :
    ∃ log : List (Event × SkillModifier × String),
      (log.map (·.1)).Perm events.q ∧
      ((∀ e ∈ events.q, Regular e) → log.Pairwise (fun a b => a.1.primary ≤ b.1.primary)) ∧
      runCombo db.combo (log.map fun l => ⟨l.1.primary, l.1.skill.toSkillCore, l.2.1⟩) =
        .ok (log.map (·.2.2), db'.combo) ∧
      ∃ candidates, List.Forall₂ (fun hit x => hit.Yields x ∧
          ∃ m out, (hit.event, m, out) ∈ log ∧ Widens hit.event.modifier m ∧
            m.withCondition ⊆ x.modifier.withCondition ∧
            ∃ src : Sources, src.combo = out ∧ x.modifier.withCondition = src.conditions hit ∧
              PositionalAdds hit.event.skill (m.addToCondition out) src.positional)
        (hitsOf events.q) candidates ∧ xs.Perm (candidates.filter deals) := by
  obtain ⟨tr, s, ⟨h1, h2⟩, rfl, rfl⟩ := getDamageInstances_ok h
  have ho := timeline_ok ht
  obtain ⟨ys, ⟨zs, h3, h4⟩, h5⟩ := reaches_conds h1 ho h2
  obtain ⟨log, l1, -, l3, l4⟩ := reaches_combos h1 ho
  obtain ⟨f1, -⟩ := reaches_firsts h1 ho h2 (fun b hb => .inl (hu b hb))
  have f2 : events.q.filter (fun e => !e.comboConditionalProcessed) = events.q :=
    List.filter_eq_self.2 (fun e he => by simp [(hu e he).combo])
  refine ⟨log, ?_, ?_, l3, zs, ?_, ?_⟩
  · rw [l1]
    exact f1.trans (.of_eq f2)
  · intro hr
    have := firsts_sorted (reaches_sorted h1 ho hr).1
    rw [← l1] at this
    exact (List.pairwise_map (f := Prod.fst)).1 this
  · refine List.Forall₂.imp ?_ (forall₂_with_mem h3)
    rintro hit x ⟨hmem, ⟨hy, -⟩, hx⟩
    have hue := hu _ (mem_hitsOf hmem)
    obtain ⟨src, hc, hf⟩ := hx (.inr hue)
    have := hf.combo
    rw [hue.combo] at this
    simp only [Bool.false_eq_true, if_false] at this
    obtain ⟨s1, m, a1, a2, a3, a4, ⟨r, a5⟩, a6⟩ := this
    exact ⟨hy, m, src.combo, l4 _ a1 hue.combo m _ r a2 a5, a3, a4, src, rfl, hc, a6⟩
  · refine (sortBy_perm _ _).trans ((by simpa using h5 : s.q.Perm (ys.filter deals)).trans ?_)
    exact (h4.filter _).symm

/-- A combo on two targets, of which the second use fails on both. -/
example : ∃ events xs db', Timeline events ∧ (∀ e ∈ events.q, Untouched e) ∧
    Ex.tracking.getDamageInstances events = .ok (xs, db') ∧
      xs.map (fun x => (x.skill.name, x.time, Ex.labels x)) =
        [("First", 600, []), ("Second", 1100, ["Target 1"]), ("Second", 1235, ["Target 2"]),
         ("Second", 1800, ["No Combo", "Target 1"]),
         ("Second", 1935, ["No Combo", "Target 2"])] :=
  Ex.conditions_of
    [Ex.ev 100 600 Ex.first, Ex.ev 1100 1100 Ex.second ["a", "b"], Ex.ev 1300 1800 Ex.second ["a", "b"]]
    (fun xs => xs.map (fun x => (x.skill.name, x.time, Ex.labels x)) =
        [("First", 600, []), ("Second", 1100, ["Target 1"]), ("Second", 1235, ["Target 2"]),
         ("Second", 1800, ["No Combo", "Target 1"]),
         ("Second", 1935, ["No Combo", "Target 2"])])
    (h := by decide +kernel)

/-! ## C70: gauges -/

/-- C70.  Every event changes the gauges exactly once, in the order of the times at which the events
are processed.  What a hit is told about the gauges is what the tracker (see C16 to C20) says after some
number of these changes: all of the changes before the time at which it reads them, and none of the
changes after it.  In particular a skill that reads the gauges when it is first processed is not affected
by the change it makes itself. -/
theorem C70_gauges (ht : Timeline events) (hu : ∀ e ∈ events.q, Untouched e)
    (h : db.getDamageInstances events = .ok (xs, db')) :
    ∃ changes : List (Event × SkillModifier),
      (changes.map (·.1)).Perm events.q ∧
      ((∀ e ∈ events.q, Regular e) → changes.Pairwise (fun a b => a.1.primary ≤ b.1.primary)) ∧
      (∀ a ∈ changes, Widens a.1.modifier a.2) ∧
      (∃ ops, ops.filter (·.isAdd) =
          changes.map (fun a => .add a.1.primary a.1.skill.toSkillCore a.2) ∧
        runGauge db.res ops = .ok db'.res) ∧
      ∃ candidates, List.Forall₂ (fun hit x => hit.Yields x ∧
          ∃ before after ops tracker tracker', ∃ src : Sources,
            x.modifier.withCondition = src.conditions hit ∧
            changes = before ++ after ∧
            ops.filter (·.isAdd) =
              before.map (fun a => .add a.1.primary a.1.skill.toSkillCore a.2) ∧
            runGauge db.res ops = .ok tracker ∧
            tracker.compile hit.gaugeTime hit.event.skill.name = .ok (src.gauge, tracker') ∧
            (hit.event.skill.jobResourcesSnapshot = true ∨ hit.event.secondary = none →
              ∃ m rest, after = (hit.event, m) :: rest) ∧
            ((∀ e ∈ events.q, Regular e) → (∀ a ∈ before, a.1.primary ≤ hit.gaugeTime) ∧
              ∀ a ∈ after, hit.gaugeTime ≤ a.1.primary))
        (hitsOf events.q) candidates ∧ xs.Perm (candidates.filter deals) := by
  obtain ⟨tr, s, ⟨h1, h2⟩, rfl, rfl⟩ := getDamageInstances_ok h
  have ho := timeline_ok ht
  obtain ⟨ys, ⟨zs, h3, h4⟩, h5⟩ := reaches_conds h1 ho h2
  obtain ⟨f1, fk⟩ := reaches_firsts h1 ho h2 (fun b hb => .inl (hu b hb))
  obtain ⟨adds, l1, l2, l3, l4⟩ := reaches_gauges h1 ho fk
  have f2 : events.q.filter (fun e => !e.comboConditionalProcessed) = events.q :=
    List.filter_eq_self.2 (fun e he => by simp [(hu e he).combo])
  refine ⟨adds, ?_, ?_, l2, l3, zs, ?_, ?_⟩
  · rw [l1]
    exact f1.trans (.of_eq f2)
  · intro hr
    have := firsts_sorted (reaches_sorted h1 ho hr).1
    rw [← l1] at this
    exact (List.pairwise_map (f := Prod.fst)).1 this
  · refine List.Forall₂.imp ?_ (forall₂_with_mem h3)
    rintro hit x ⟨hmem, ⟨hy, -⟩, hx⟩
    have hue := hu _ (mem_hitsOf hmem)
    obtain ⟨src, hc, hf⟩ := hx (.inr hue)
    refine ⟨hy, ?_⟩
    have hg := hf.gauge
    rw [hue.gauges] at hg
    simp only [Bool.false_eq_true, if_false] at hg
    unfold Hit.When at hg
    -- where the gauges are read
    obtain ⟨s1, e1, r, hin, hpr, hsk, hfirst, hcomp⟩ : ∃ s1 e1 r, (s1, e1) ∈ tr ∧
        e1.primary = hit.gaugeTime ∧ e1.skill = hit.event.skill ∧
        (hit.event.skill.jobResourcesSnapshot = true ∨ hit.event.secondary = none →
          e1 = hit.event) ∧
        s1.db.res.compile e1.primary e1.skill.name = .ok (src.gauge, r) := by
      unfold Hit.gaugeTime
      split_ifs at hg ⊢ with hnow
      · obtain ⟨s1, a1, r, a2⟩ := hg
        exact ⟨s1, hit.event, r, a1, rfl, rfl, fun _ => rfl, a2⟩
      · obtain ⟨s1, e1, a1, a2, r, a3⟩ := hg
        exact ⟨s1, e1, r, a1, a2.1, a2.2.2.1, fun hn => absurd hn hnow, a3⟩
    obtain ⟨l, r', hl⟩ := List.append_of_mem hin
    obtain ⟨before, after, b1, b2, b3, ops, b4, b5⟩ := l4 l (s1, e1) r' hl
    refine ⟨before, after, ops, s1.db.res, r, src, hc, b1, b4, b5, ?_, ?_, ?_⟩
    · rw [← hpr, ← hsk]
      exact hcomp
    · intro hn
      have := hfirst hn
      subst this
      have e2 : firsts ((s1, hit.event) :: r') = hit.event :: firsts r' := by
        simp [firsts, hue.combo]
      rw [e2] at b3
      cases after with
      | nil => simp at b3
      | cons a rest =>
        obtain ⟨a1, a2⟩ := a
        simp only [List.map_cons, List.cons.injEq] at b3
        exact ⟨a2, rest, by rw [b3.1]⟩
    · intro hr
      have hsorted := (reaches_sorted h1 ho hr).1
      rw [hl, List.pairwise_append] at hsorted
      obtain ⟨-, p2, p3⟩ := hsorted
      rw [← hpr]
      constructor
      · intro a ha
        obtain ⟨s2, hs2⟩ := mem_firsts (tr := l) (e := a.1) (by
          rw [← b2]
          exact List.mem_map_of_mem ha)
        exact p3 _ hs2 (s1, e1) (by simp)
      · intro a ha
        obtain ⟨s2, hs2⟩ := mem_firsts (tr := (s1, e1) :: r') (e := a.1) (by
          rw [← b3]
          exact List.mem_map_of_mem ha)
        rcases List.mem_cons.1 hs2 with hs2 | hs2
        · cases hs2
          exact le_refl _
        · exact (List.pairwise_cons.1 p2).1 _ hs2
  · refine (sortBy_perm _ _).trans ((by simpa using h5 : s.q.Perm (ys.filter deals)).trans ?_)
    exact (h4.filter _).symm

/-- A skill that both gains and reads the gauge is not told about its own gain; the next use is. -/
example : ∃ events xs db', Timeline events ∧ (∀ e ∈ events.q, Untouched e) ∧
    Ex.tracking.getDamageInstances events = .ok (xs, db') ∧
      xs.map (fun x => (x.skill.name, x.time, Ex.labels x)) =
        [("Both", 600, []), ("Both", 1600, ["1 Fists"]), ("Both", 2000, ["2 Fists"])] :=
  Ex.conditions_of
    [Ex.ev 100 600 Ex.both, Ex.ev 1100 1600 Ex.both, Ex.ev 2000 2000 Ex.both]
    (fun xs => xs.map (fun x => (x.skill.name, x.time, Ex.labels x)) =
        [("Both", 600, []), ("Both", 1600, ["1 Fists"]), ("Both", 2000, ["2 Fists"])])
    (h := by decide +kernel)

end Ama
