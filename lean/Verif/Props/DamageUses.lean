import Verif.Lemmas.DamageUses
import Verif.Examples.DamageEffects

/-!
# Properties of effects with limited uses in the result of the damage builder (C67)
-/

namespace Ama

open Spec DamageBuilder

variable {db db' : DamageBuilder} {events : Events} {xs : List DamageInstance}

/-! ## C67: an effect with `n` uses is on the hits of the first `n` events that may have it -/

open Classical in
/-- C67.  The effect `name`, given once by the event `g` with `spec.numUses` uses (not in a priority
group, not yet running).  A hit that has it is allowed to have it, is decided within its duration, and
fewer than that many events took it (strictly) between `g` and the hit.  Conversely a hit that may have
it, decided after `g` and within its duration, has it unless more than that many events other than `g`
(among them that of the hit) took it from `g` up to then. -/
theorem C67_uses {slot : Slot} {name : String} {spec : StatusEffectSpec} (hx : spec.extendOnly = false)
    (hu : 0 ≤ spec.numUses) (hf : Followed slot name spec events) (hwf : WellFormed db.se)
    (hfresh : name ∉ Dict.keys (slot.effects db.se)) (hp : name ∉ db.se.priority) (g : Event)
    (hg : events.q.filter (fun e => decide (GivesTo slot name e)) = [g])
    (h : db.getDamageInstances events = .ok (xs, db')) :
    ∃ candidates, List.Forall₂ (fun hit x => hit.Yields x ∧ (slot.Concerns hit.target →
        (name ∈ (slot.seen x).statusEffects →
          Allowed hit.event.skill.toSkillCore name spec ∧
          appliedAt g ≤ decidedAt slot hit.event ∧
          (decidedAt slot hit.event : WithTop ℚ) ≤ appliedAt g + spec.duration ∧
          (((events.q.countP (fun e => decide (Eats slot name spec e ∧
            appliedAt g < decidedAt slot e ∧ decidedAt slot e < decidedAt slot hit.event)) : ℕ) : ℤ) :
              WithTop ℤ) < spec.numUses) ∧
        (Allowed hit.event.skill.toSkillCore name spec →
          appliedAt g < decidedAt slot hit.event →
          (decidedAt slot hit.event : WithTop ℚ) ≤ appliedAt g + spec.duration →
          (((events.q.countP (fun e => decide (e ≠ g ∧ Eats slot name spec e ∧
            appliedAt g ≤ decidedAt slot e ∧ decidedAt slot e ≤ decidedAt slot hit.event)) : ℕ) : ℤ) :
              WithTop ℤ) ≤ spec.numUses →
          name ∈ (slot.seen x).statusEffects)))
        (hitsOf events.q) candidates ∧
      xs.Perm (candidates.filter deals) := by
  obtain ⟨tr, s, ⟨h1, h2⟩, rfl, -⟩ := getDamageInstances_ok h
  have ho := timeline_ok hf.timeline
  obtain ⟨ys, ⟨zs, h3, h4⟩, h5⟩ := reaches_spec h1 ho h2
  have hq : ∀ b ∈ events.q, QueueOk slot name spec b := fun b hb =>
    ⟨hf.regular b hb, (hf.targets b hb).1, (hf.targets b hb).2, hf.gives b hb⟩
  have hsorted := (reaches_sorted h1 ho hf.regular).1
  have hgiven := reaches_given h1 ho h2 hq
  have heaten := reaches_eaten h1 ho h2 hq
  have hgv : givenIn slot name tr = [appliedAt g] := by
    have : (givenIn slot name tr).Perm [appliedAt g] := by
      refine hgiven.trans ?_
      simp only
      rw [hg]
      exact .refl _
    simpa using this
  have hgmem : ∀ b, b ∈ events.q ∧ GivesTo slot name b ↔ b = g := by
    intro b
    have : b ∈ events.q.filter (fun e => decide (GivesTo slot name e)) ↔ b ∈ [g] := by rw [hg]
    simpa using this
  obtain ⟨hgq, hgg⟩ := (hgmem g).2 rfl
  obtain ⟨q, hperm⟩ := perm_of_mem hgq
  have hnone : ∀ b ∈ q, ¬ GivesTo slot name b := by
    have := (hperm.filter (fun e => decide (GivesTo slot name e)))
    rw [hg, List.filter_cons_of_pos (by simpa using hgg)] at this
    have := this.length_eq
    simp only [List.length_cons, List.length_nil, zero_add, Nat.right_eq_add, List.length_eq_zero_iff,
      List.filter_eq_nil_iff, decide_eq_true_eq] at this
    exact this
  obtain ⟨l1, pg, l2, htr, hpg, hsub, hbefore, hafter⟩ := reaches_once hx hu h1 ho hq hwf hp hgv hsorted
    (Dict.get?_eq_none.2 hfresh) h2 hperm hgg hnone
  have hopen : ∀ q', (∀ e ∈ q', e ∈ events.q) → openAt slot name spec q' =
      (q'.filter (fun e => decide (Eats slot name spec e))).map (decidedAt slot) := by
    intro q' hq'
    unfold openAt
    congr 1
    refine List.filter_congr fun e he => ?_
    have := hf.flags e (hq' e he)
    simp [this]
  -- counting in the timeline and in the execution
  have hcount : ∀ (P : ℚ → Prop) (_ : DecidablePred P)
      (_ : ∀ e, Decidable (Eats slot name spec e ∧ P (decidedAt slot e))),
      (eatenIn slot name spec tr).countP (fun t => decide (P t)) =
      events.q.countP (fun e => decide (Eats slot name spec e ∧ P (decidedAt slot e))) := by
    intro P _ _
    rw [heaten.countP_eq, hopen _ (fun _ h => h), List.countP_map, List.countP_filter]
    refine List.countP_congr fun e _ => ?_
    simp [and_comm]
  have hcount' : ∀ (P : ℚ → Prop) (_ : DecidablePred P)
      (_ : ∀ e, Decidable (e ≠ g ∧ Eats slot name spec e ∧ P (decidedAt slot e))),
      (eatenIn slot name spec l2).countP (fun t => decide (P t)) ≤
      events.q.countP (fun e => decide (e ≠ g ∧ Eats slot name spec e ∧ P (decidedAt slot e))) := by
    intro P _ _
    refine (hsub.countP_le _).trans ?_
    rw [hopen q (fun e he => hperm.mem_iff.2 (List.mem_cons_of_mem _ he)), List.countP_map,
      List.countP_filter, hperm.countP_eq, List.countP_cons_of_neg (by simp)]
    refine le_of_eq (List.countP_congr fun e he => ?_)
    have : e ≠ g := fun h => hnone e he (h ▸ hgg)
    simp [this, and_comm]
  have happend : ∀ a b, eatenIn slot name spec (a ++ b) =
      eatenIn slot name spec a ++ eatenIn slot name spec b := by
    intro a b
    unfold eatenIn
    rw [List.filter_append, List.map_append]
  have hmemE : ∀ (a : List (DamageState × Event)) t, t ∈ eatenIn slot name spec a →
      ∃ p ∈ a, p.2.primary = t := by
    intro a t ht
    obtain ⟨p, hp, rfl⟩ := List.mem_map.1 ht
    exact ⟨p, (List.mem_filter.1 hp).1, rfl⟩
  refine ⟨zs, ?_, ?_⟩
  · refine List.Forall₂.imp ?_ (forall₂_with_mem h3)
    rintro hit x ⟨hmem, hy⟩
    have hev := mem_hitsOf hmem
    refine ⟨hy.1, ?_⟩
    intro hc
    obtain ⟨p, hptr, hp1, hp2, hp3, c, se, hp4⟩ := hit_decided (hf.regular _ hev) (hf.targets _ hev).2
      (mem_hitsOf_target hmem) (hf.flags _ hev) hc hy
    rw [← hp1, ← hp2]
    have hsplit : p ∈ l1 ++ [pg] ∨ p ∈ l2 := by
      rw [htr] at hptr
      simp only [List.mem_append, List.mem_cons] at hptr
      simp only [List.mem_append, List.mem_singleton]
      tauto
    rcases hsplit with hin | hin
    · -- before the effect is given
      obtain ⟨l, r, hl⟩ := List.append_of_mem hin
      obtain ⟨k1, k2, k3⟩ := hbefore l p r hl
      have hle : p.2.primary ≤ appliedAt g := by
        rw [← hpg]
        rw [htr] at hsorted
        rcases List.mem_append.1 hin with hin | hin
        · exact (List.pairwise_append.1 hsorted).2.2 p hin pg List.mem_cons_self
        · rw [List.mem_singleton.1 hin]
      obtain ⟨-, -, -, hm⟩ := compile_entry k1 k2 hp4
      constructor
      · intro hn
        obtain ⟨e, he, -⟩ := hm.1 hn
        rw [k3] at he
        cases he
      · intro _ hlt
        exact absurd hlt (not_lt.2 hle)
    · obtain ⟨l, r, hl⟩ := List.append_of_mem hin
      obtain ⟨k1, k2, k3, k4⟩ := hafter l p r hl
      have hseen := seen_uses k1 k2 k3 k4 hp4
      rw [hseen]
      rw [htr] at hsorted
      obtain ⟨s1, s2, s3⟩ := List.pairwise_append.1 hsorted
      obtain ⟨s4, s5⟩ := List.pairwise_cons.1 s2
      rw [hl] at s5
      obtain ⟨s6, s7, s8⟩ := List.pairwise_append.1 s5
      obtain ⟨s9, s10⟩ := List.pairwise_cons.1 s7
      have hge : appliedAt g ≤ p.2.primary := by
        rw [← hpg]
        exact s4 p hin
      have htrace : eatenIn slot name spec tr = eatenIn slot name spec l1 ++
          (eatenIn slot name spec [pg] ++ (eatenIn slot name spec l ++
            (eatenIn slot name spec [p] ++ eatenIn slot name spec r))) := by
        rw [htr, hl, ← happend, ← happend, ← happend, ← happend]
        simp
      constructor
      · rintro ⟨a1, a2, a3⟩
        refine ⟨a1, hge, a2, lt_of_le_of_lt ?_ a3⟩
        rw [← hcount (fun t => appliedAt g < t ∧ t < p.2.primary) (fun _ => inferInstance) _, htrace]
        have z1 : (eatenIn slot name spec l1).countP
            (fun t => decide (appliedAt g < t ∧ t < p.2.primary)) = 0 := by
          rw [List.countP_eq_zero]
          intro t ht
          obtain ⟨p', hp', rfl⟩ := hmemE _ _ ht
          have := s3 p' hp' pg List.mem_cons_self
          rw [hpg] at this
          simp [not_lt.2 this]
        have z2 : (eatenIn slot name spec [pg]).countP
            (fun t => decide (appliedAt g < t ∧ t < p.2.primary)) = 0 := by
          rw [List.countP_eq_zero]
          intro t ht
          obtain ⟨p', hp', rfl⟩ := hmemE _ _ ht
          rw [List.mem_singleton.1 hp', hpg]
          simp
        have z3 : (eatenIn slot name spec [p]).countP
            (fun t => decide (appliedAt g < t ∧ t < p.2.primary)) = 0 := by
          rw [List.countP_eq_zero]
          intro t ht
          obtain ⟨p', hp', rfl⟩ := hmemE _ _ ht
          rw [List.mem_singleton.1 hp']
          simp
        have z4 : (eatenIn slot name spec r).countP
            (fun t => decide (appliedAt g < t ∧ t < p.2.primary)) = 0 := by
          rw [List.countP_eq_zero]
          intro t ht
          obtain ⟨p', hp', rfl⟩ := hmemE _ _ ht
          have := s9 p' hp'
          simp [not_lt.2 this]
        simp only [List.countP_append, z1, z2, z3, z4, add_zero, zero_add]
        exact_mod_cast List.countP_le_length
      · intro a1 a2 a3 a4
        refine ⟨a1, a3, lt_of_lt_of_le ?_ a4⟩
        have hle := hcount' (fun t => appliedAt g ≤ t ∧ t ≤ p.2.primary) (fun _ => inferInstance)
          (fun _ => inferInstance)
        have htrace2 : eatenIn slot name spec l2 = eatenIn slot name spec l ++
            (eatenIn slot name spec [p] ++ eatenIn slot name spec r) := by
          rw [hl, ← happend, ← happend]
          simp
        rw [htrace2] at hle
        have z1 : (eatenIn slot name spec l).countP
            (fun t => decide (appliedAt g ≤ t ∧ t ≤ p.2.primary)) =
              (eatenIn slot name spec l).length := by
          rw [List.countP_eq_length]
          intro t ht
          obtain ⟨p', hp', rfl⟩ := hmemE _ _ ht
          have b1 := s4 p' (by rw [hl]; exact List.mem_append_left _ hp')
          have b2 := s8 p' hp' p List.mem_cons_self
          rw [hpg] at b1
          simp [b1, b2]
        have z2 : (eatenIn slot name spec [p]).countP
            (fun t => decide (appliedAt g ≤ t ∧ t ≤ p.2.primary)) = 1 := by
          rw [eatenIn_cons, if_pos ⟨hp3, a1⟩]
          simp [eatenIn, hge]
        simp only [List.countP_append, z1, z2] at hle
        refine WithTop.coe_lt_coe.2 (Int.ofNat_lt.2 (lt_of_lt_of_le (Nat.lt_succ_self _) ?_))
        refine le_trans (by omega) (hle.trans (le_of_eq ?_))
        congr!
  · refine (sortBy_perm _ _).trans ((by simpa using h5 : s.q.Perm (ys.filter deals)).trans ?_)
    exact (h4.filter _).symm

/-- Focus (two uses, for Hit only) at 1000: the spell does not have it nor use it up, the first two Hits
decided after it have it, the third does not.  One Hit lands later than it is decided. -/
example : ∃ events xs db', Followed .buffs "Focus" Ex.focusSpec events ∧
    Ex.fresh.getDamageInstances events = .ok (xs, db') ∧
      (events.q.filter (fun e => decide (GivesTo .buffs "Focus" e))).length = 1 ∧
      xs.map (fun x => (x.skill.name, x.time, x.buffs.statusEffects)) =
        [("Hit", 1400, []), ("Spell", 2000, []), ("Hit", 4500, []), ("Hit", 4600, ["Focus"]),
         ("Hit", 5000, ["Focus"])] :=
  Ex.followed_of .buffs "Focus" Ex.focusSpec
    [Ex.ev 900 1400 Ex.hit, Ex.ev 1000 1000 Ex.focus, Ex.ev 1500 2000 Ex.spell, Ex.ev 2000 5000 Ex.hit,
     Ex.ev 4000 4500 Ex.hit, Ex.ev 3900 4600 Ex.hit]
    (fun events xs => (events.q.filter (fun e => decide (GivesTo .buffs "Focus" e))).length = 1 ∧
      xs.map (fun x => (x.skill.name, x.time, x.buffs.statusEffects)) =
        [("Hit", 1400, []), ("Spell", 2000, []), ("Hit", 4500, []), ("Hit", 4600, ["Focus"]),
         ("Hit", 5000, ["Focus"])])
    (fun e => e.skill = Ex.focus ∨ e.skill = Ex.hit ∨ e.skill = Ex.spell)
    (fun _ hn hs => Ex.focus_gives hn hs) (h := by decide +kernel)

end Ama
