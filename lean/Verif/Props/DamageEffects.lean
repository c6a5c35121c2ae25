import Verif.Lemmas.DamageEffects
import Verif.Examples.DamageEffects

/-!
# Properties of status effects in the result of the damage builder (C66)
-/

namespace Ama

open Spec DamageBuilder

variable {db db' : DamageBuilder} {events : Events} {xs : List DamageInstance}

/-! ## C66: an effect is on exactly the hits that are decided while it runs -/

/-- C66.  The effect `name` (with unlimited uses, not in a priority group, not yet running) is among
the effects of a hit exactly if the skill may be affected by it and it is running at the time the
effects of the hit are decided, where only the applications before that time count: it runs from its
first application until the end that each application sets.  (Hits decided at the very moment of an
application are left open.) -/
theorem C66_running {slot : Slot} {name : String} {spec : StatusEffectSpec} (hu : Unlimited spec)
    (hf : Followed slot name spec events) (hwf : WellFormed db.se)
    (hfresh : name ∉ Dict.keys (slot.effects db.se)) (hp : name ∉ db.se.priority)
    (h : db.getDamageInstances events = .ok (xs, db')) :
    ∃ candidates, List.Forall₂ (fun hit x => hit.Yields x ∧ (slot.Concerns hit.target →
        (∀ g ∈ events.q, GivesTo slot name g → appliedAt g ≠ decidedAt slot hit.event) →
        ∀ times, times.Pairwise (· ≤ ·) →
          times.Perm (((events.q.filter (fun g => decide (GivesTo slot name g))).map appliedAt).filter
            (fun s => decide (s < decidedAt slot hit.event))) →
          (name ∈ (slot.seen x).statusEffects ↔
            Allowed hit.event.skill.toSkillCore name spec ∧
              Running spec times (decidedAt slot hit.event)))) (hitsOf events.q) candidates ∧
      xs.Perm (candidates.filter deals) := by
  obtain ⟨tr, s, ⟨h1, h2⟩, rfl, -⟩ := getDamageInstances_ok h
  have ho := timeline_ok hf.timeline
  obtain ⟨ys, ⟨zs, h3, h4⟩, h5⟩ := reaches_spec h1 ho h2
  have hq : ∀ b ∈ events.q, QueueOk slot name spec b := fun b hb =>
    ⟨hf.regular b hb, (hf.targets b hb).1, (hf.targets b hb).2, hf.gives b hb⟩
  have hsorted := (reaches_sorted h1 ho hf.regular).1
  have hgiven := reaches_given h1 ho h2 hq
  -- some time before everything
  obtain ⟨t0, ht0⟩ : ∃ t0 : ℚ, ∀ p ∈ tr, t0 ≤ p.2.primary := by
    cases tr with
    | nil => exact ⟨0, by simp⟩
    | cons p tr =>
      refine ⟨p.2.primary, fun p' hp' => ?_⟩
      rcases List.mem_cons.1 hp' with rfl | hp'
      · exact le_refl _
      · exact (List.pairwise_cons.1 hsorted).1 p' hp'
  have hsim := reaches_sim hu h1 ho hq hwf hp (w := none) ht0 hsorted
    { run := fun e he => by
        have : entry db.se slot name = none := Dict.get?_eq_none.2 hfresh
        rw [this] at he
        cases he
      over := by simp }
  -- what is asked for in an iteration
  have key : ∀ (p : DamageState × Event) (agg : StatusEffects), p ∈ tr →
      (∃ c se, slot.compile (startSe p.1 p.2) p.2.primary p.2.skill.toSkillCore =
        .ok ((agg, c), se)) →
      (∀ g ∈ events.q, GivesTo slot name g → appliedAt g ≠ p.2.primary) →
      ∀ times, times.Pairwise (· ≤ ·) →
        times.Perm (((events.q.filter (fun g => decide (GivesTo slot name g))).map appliedAt).filter
          (fun s => decide (s < p.2.primary))) →
        (name ∈ agg.statusEffects ↔ Allowed p.2.skill.toSkillCore name spec ∧
          Running spec times p.2.primary) := by
    rintro p agg hmem ⟨c, se, hc⟩ hne times ht hperm
    obtain ⟨l, r, hl⟩ := List.append_of_mem hmem
    obtain ⟨k1, k2, k3, k4⟩ := hsim l p r hl
    rw [seen_iff k1 k2 k3 k4 hc]
    have : givenIn slot name l = times := by
      have e1 : givenIn slot name l = (givenIn slot name tr).filter
          (fun s => decide (s < p.2.primary)) := by
        have e2 : givenIn slot name tr = givenIn slot name l ++ givenIn slot name (p :: r) := by
          rw [hl]
          unfold givenIn
          rw [List.filter_append, List.map_append]
        rw [e2, List.filter_append]
        rw [hl, List.pairwise_append] at hsorted
        obtain ⟨-, p2, p3⟩ := hsorted
        have e3 : (givenIn slot name (p :: r)).filter (fun s => decide (s < p.2.primary)) = [] := by
          rw [List.filter_eq_nil_iff]
          intro x hx
          obtain ⟨p', hp', rfl⟩ := List.mem_map.1 hx
          have hp' := (List.mem_filter.1 hp').1
          simp only [decide_eq_true_eq, not_lt]
          rcases List.mem_cons.1 hp' with rfl | hp'
          · exact le_refl _
          · exact (List.pairwise_cons.1 p2).1 p' hp'
        rw [e3, List.append_nil, eq_comm, List.filter_eq_self]
        intro x hx
        simp only [decide_eq_true_eq]
        obtain ⟨p', hp', hxp⟩ := List.mem_map.1 hx
        have hle : x ≤ p.2.primary := by
          rw [← hxp]
          exact p3 p' (List.mem_filter.1 hp').1 p (by simp)
        refine lt_of_le_of_ne hle ?_
        have hx' : x ∈ givenIn slot name tr := by
          rw [e2]
          exact List.mem_append_left _ hx
        rw [hgiven.mem_iff] at hx'
        obtain ⟨g, hg, hgx⟩ := List.mem_map.1 hx'
        obtain ⟨hg1, hg2⟩ := List.mem_filter.1 hg
        rw [← hgx]
        exact hne g hg1 (by simpa using hg2)
      have e4 : (givenIn slot name l).Perm times := by
        rw [e1]
        exact (hgiven.filter _).trans hperm.symm
      have e5 : (givenIn slot name l).Pairwise (· ≤ ·) := by
        rw [hl, List.pairwise_append] at hsorted
        unfold givenIn
        rw [List.pairwise_map]
        exact hsorted.1.sublist List.filter_sublist
      exact e4.eq_of_pairwise (fun a b _ _ h1 h2 => le_antisymm h1 h2) e5 ht
    rw [this]
    rfl
  refine ⟨zs, ?_, ?_⟩
  · refine List.Forall₂.imp ?_ (forall₂_with_mem h3)
    rintro hit x ⟨hmem, hy, -, hb, hd⟩
    have hev := mem_hitsOf hmem
    refine ⟨hy, ?_⟩
    intro hc hne times ht hperm
    have htaken : ∃ At : DamageState → Event → StatusEffects → Prop,
        hit.TakenAt tr (slot.status hit.event) At (slot.seen x) ∧
        ∀ s e b, At s e b → ∃ c se,
          slot.compile (startSe s e) e.primary e.skill.toSkillCore = .ok ((b, c), se) := by
      cases slot with
      | buffs => exact ⟨BuffsAt, hb, fun _ _ _ h => h⟩
      | debuffs target =>
        have : target = hit.target := hc
        subst this
        exact ⟨_, hd (hf.targets _ hev).2, fun _ _ _ h => h⟩
    obtain ⟨At, h6, h7⟩ := htaken
    obtain ⟨b, hb⟩ := hf.flags _ hev
    unfold Hit.TakenAt at h6
    rw [hb] at h6
    cases b with
    | true =>
      obtain ⟨s1, h8, h9⟩ := h6
      have hdec : decidedAt slot hit.event = hit.event.primary := by
        unfold decidedAt
        rw [hb, if_neg (by simp)]
      rw [hdec] at hne hperm ⊢
      exact key (s1, hit.event) _ h8 (h7 _ _ _ h9) hne times ht hperm
    | false =>
      have hdec : decidedAt slot hit.event = appliedAt hit.event := by
        unfold decidedAt
        rw [hb, if_pos rfl]
      simp only at h6
      split_ifs at h6 with hsec
      · obtain ⟨s1, h8, h9⟩ := h6
        have : appliedAt hit.event = hit.event.primary := by simp [appliedAt, hsec]
        rw [hdec, this] at hne hperm ⊢
        exact key (s1, hit.event) _ h8 (h7 _ _ _ h9) hne times ht hperm
      · obtain ⟨s1, e1, h8, ⟨g1, g2, g3, g4, g5, -⟩, h9⟩ := h6
        have : e1.primary = appliedAt hit.event := by
          rw [g1]
          unfold Hit.time
          rw [if_neg]
          have := (hf.regular _ hev).targets hsec
          omega
        rw [hdec, ← this] at hne hperm ⊢
        rw [← g3]
        exact key (s1, e1) _ h8 (h7 _ _ _ h9) hne times ht hperm
  · refine (sortBy_perm _ _).trans ((by simpa using h5 : s.q.Perm (ys.filter deals)).trans ?_)
    exact (h4.filter _).symm

/-- Cheer at 1000 and again at 8000 (extended to at most 10 s): hits decided in between and until 18000
have it, those decided later do not, although one of them is snapshotted within the window. -/
example : ∃ events xs db', Followed .buffs "Cheer" Ex.cheerSpec events ∧
    Ex.fresh.getDamageInstances events = .ok (xs, db') ∧
      xs.map (fun x => (x.skill.name, x.time, x.buffs.statusEffects)) =
        [("Hit", 1400, []), ("Hit", 2500, ["Cheer"]), ("Hit", 18500, ["Cheer"]),
         ("Spell", 18600, []), ("Hit", 18700, [])] :=
  Ex.followed_of .buffs "Cheer" Ex.cheerSpec
    [Ex.ev 900 1400 Ex.hit, Ex.ev 1000 1000 Ex.cheer, Ex.ev 2000 2500 Ex.hit, Ex.ev 7500 8000 Ex.cheer,
     Ex.ev 18000 18500 Ex.hit, Ex.ev 17000 18600 Ex.spell (buffs := false), Ex.ev 18001 18700 Ex.hit]
    (fun _ xs => xs.map (fun x => (x.skill.name, x.time, x.buffs.statusEffects)) =
        [("Hit", 1400, []), ("Hit", 2500, ["Cheer"]), ("Hit", 18500, ["Cheer"]),
         ("Spell", 18600, []), ("Hit", 18700, [])])
    (fun e => e.skill = Ex.cheer ∨ e.skill = Ex.mark ∨ e.skill = Ex.hit ∨ e.skill = Ex.spell)
    (fun _ hn hs => Ex.cheer_gives hn hs) (h := by decide +kernel)

/-- C66, for an effect that is given once, by the event `g`: it is on exactly the hits that are decided
after the application of `g` and at most its duration later. -/
theorem C66_window {slot : Slot} {name : String} {spec : StatusEffectSpec} (hu : Unlimited spec)
    (hx : spec.extendOnly = false) (hf : Followed slot name spec events) (hwf : WellFormed db.se)
    (hfresh : name ∉ Dict.keys (slot.effects db.se)) (hp : name ∉ db.se.priority) (g : Event)
    (hg : events.q.filter (fun e => decide (GivesTo slot name e)) = [g])
    (h : db.getDamageInstances events = .ok (xs, db')) :
    ∃ candidates, List.Forall₂ (fun hit x => hit.Yields x ∧ (slot.Concerns hit.target →
        appliedAt g ≠ decidedAt slot hit.event →
        (name ∈ (slot.seen x).statusEffects ↔
          Allowed hit.event.skill.toSkillCore name spec ∧
            appliedAt g < decidedAt slot hit.event ∧
            (decidedAt slot hit.event : WithTop ℚ) ≤ appliedAt g + spec.duration)))
        (hitsOf events.q) candidates ∧
      xs.Perm (candidates.filter deals) := by
  obtain ⟨cs, h1, h2⟩ := C66_running hu hf hwf hfresh hp h
  refine ⟨cs, h1.imp ?_, h2⟩
  rintro hit x ⟨hy, hr⟩
  refine ⟨hy, fun hc hne => ?_⟩
  have hall : ∀ g' ∈ events.q, GivesTo slot name g' → appliedAt g' ≠ decidedAt slot hit.event := by
    intro g' hg' hgt
    have : g' ∈ events.q.filter (fun e => decide (GivesTo slot name e)) :=
      List.mem_filter.2 ⟨hg', by simpa using hgt⟩
    rw [hg, List.mem_singleton] at this
    rw [this]
    exact hne
  have := hr hc hall (([appliedAt g]).filter (fun s => decide (s < decidedAt slot hit.event)))
    (by refine List.Pairwise.sublist List.filter_sublist ?_; simp) (by rw [hg]; rfl)
  rw [this]
  refine and_congr_right fun _ => ?_
  by_cases hlt : appliedAt g < decidedAt slot hit.event
  · simp [Running, hlt, endAfter, hx]
  · simp [Running, hlt]

/-- Mark on A and B at 1000: both have it until 11000, C never has it. -/
example : ∃ events xs db', Followed (.debuffs "B") "Mark" Ex.markSpec events ∧
    Ex.fresh.getDamageInstances events = .ok (xs, db') ∧
      (events.q.filter (fun e => decide (GivesTo (.debuffs "B") "Mark" e))).length = 1 ∧
      xs.map (fun x => (x.time, x.target, x.debuffs.statusEffects)) =
        [(2000, "B", ["Mark"]), (3000, "C", []), (11000, "A", ["Mark"]), (11135, "B", ["Mark"]),
         (11270, "C", []), (11300, "B", [])] :=
  Ex.followed_of (.debuffs "B") "Mark" Ex.markSpec
    [Ex.ev 1000 1000 Ex.mark ["A", "B"], Ex.ev 1500 2000 Ex.hit ["B"], Ex.ev 1500 3000 Ex.hit ["C"],
     Ex.ev 11000 11000 Ex.hit ["A", "B", "C"], Ex.ev 11001 11300 Ex.hit ["B"]]
    (fun events xs => (events.q.filter (fun e => decide (GivesTo (.debuffs "B") "Mark" e))).length = 1 ∧
      xs.map (fun x => (x.time, x.target, x.debuffs.statusEffects)) =
        [(2000, "B", ["Mark"]), (3000, "C", []), (11000, "A", ["Mark"]), (11135, "B", ["Mark"]),
         (11270, "C", []), (11300, "B", [])])
    (fun e => e.skill = Ex.cheer ∨ e.skill = Ex.mark ∨ e.skill = Ex.hit ∨ e.skill = Ex.spell)
    (fun _ hn hs => Ex.mark_gives "B" hn hs) (h := by decide +kernel)

end Ama
