import Verif.Lemmas.Events

/-!
# C24, C25: the event queue
-/

namespace Ama

open Spec

/-- An addition for the examples. -/
def exampleAdd (name : String) (prio : ℤ) (t : ℚ) (t2 : Option ℚ) (damage : Bool) : NewEvent :=
  { priority := prio, primary := t, secondary := t2,
    skill := { name := name, damageSpec := .single (if damage then some { potency := 100 } else none) },
    modifier := {}, snapshotBuffs := .flag true, snapshotDebuffs := .flag false }

/-! ## C24 -/

/-- C24.  After any operations on an initially empty queue, draining it gives, in order of priority
and name, exactly the added events that were not handed out before. -/
theorem C24_drain (ops : List QueueOp) (evs : Events) (out : List Event)
    (h : runQueue {} ops = .ok (out, evs)) :
    ∃ rest es, drain evs.q.length evs = .ok rest ∧ rest.Pairwise Before ∧
      EventsOf 0 (additions ops) es ∧ (out ++ rest).Perm es := by
  obtain ⟨h1, es, h2, h3⟩ := runQueue_spec ops {} evs out Events.ok_empty h
  obtain ⟨rest, r1, r2, r3⟩ := drain_spec _ evs h1 le_rfl
  refine ⟨rest, es, r1, r3, h2, ?_⟩
  have h3' : (out ++ evs.q).Perm es := by simpa using h3
  exact (List.Perm.append_left out r2).trans h3'

/-- C24.  Each event handed out comes before (or ties with) everything still in the queue. -/
theorem C24_next_is_least (ops : List QueueOp) (evs evs' : Events) (out : List Event) (e : Event)
    (h : runQueue {} ops = .ok (out, evs)) (hn : evs.getNext = .ok (e, evs')) :
    ∃ rest, drain evs'.q.length evs' = .ok rest ∧ ∀ b ∈ rest, Before e b := by
  obtain ⟨h1, _⟩ := runQueue_spec ops {} evs out Events.ok_empty h
  obtain ⟨g1, g2, g3, _⟩ := Events.getNext_spec h1 hn
  obtain ⟨rest, r1, r2, _⟩ := drain_spec _ evs' g1 le_rfl
  exact ⟨rest, r1, fun b hb => g3 b (g2.symm.subset (List.mem_cons_of_mem _ (r2.subset hb)))⟩

/-- C24.  Operations fail only by taking an event out of an empty queue: after any operations an
addition succeeds, and `get_next` raises `IndexError` exactly when the queue is empty. -/
theorem C24_total (ops : List QueueOp) (evs : Events) (out : List Event)
    (h : runQueue {} ops = .ok (out, evs)) :
    (∀ a, ∃ evs', evs.add a = .ok evs') ∧
    (evs.isEmpty = false → ∃ e evs', evs.getNext = .ok (e, evs')) ∧
    (evs.isEmpty = true → evs.getNext = .error .indexError) ∧
    (evs.isEmpty = true ↔ out.length = (additions ops).length) := by
  obtain ⟨h1, es, h2, h3⟩ := runQueue_spec ops {} evs out Events.ok_empty h
  refine ⟨fun a => ?_, ?_, ?_, ?_⟩
  · obtain ⟨evs', h', _⟩ := evs.add_spec h1 a
    exact ⟨evs', h'⟩
  · intro he
    exact Events.getNext_total (by simpa [Events.isEmpty] using he)
  · intro he
    exact Events.getNext_empty (by simpa [Events.isEmpty] using he)
  · have hlen := h3.length_eq
    have hes : (additions ops).length = es.length := (eventsOf_forall₂ h2).length_eq
    simp only [List.length_append, List.length_nil, Nat.add_zero] at hlen
    have he : evs.isEmpty = true ↔ evs.q.length = 0 := by simp [Events.isEmpty]
    rw [he]
    omega

/-- C24.  `get_q` shows the same events in the same order (up to ties) and changes nothing. -/
theorem C24_get_q (ops : List QueueOp) (evs : Events) (out : List Event)
    (h : runQueue {} ops = .ok (out, evs)) :
    evs.getQ.Pairwise Before ∧ ∃ rest, drain evs.q.length evs = .ok rest ∧ evs.getQ.Perm rest := by
  obtain ⟨h1, _⟩ := runQueue_spec ops {} evs out Events.ok_empty h
  obtain ⟨rest, r1, r2, _⟩ := drain_spec _ evs h1 le_rfl
  refine ⟨(sortBy_sorted Event.key evs.q).imp (fun h => before_iff.2 h), rest, r1, ?_⟩
  exact (sortBy_perm Event.key evs.q).trans r2.symm

/-- A mixed history: three events, one taken out in between. -/
example : ((runQueue {} [.add (exampleAdd "b" 5 1 none true), .add (exampleAdd "a" 5 2 (some 2) true),
      .next, .add (exampleAdd "c" 3 3 (some 4) false)]).bind (fun r => do
        return (r.1.map (fun e => (e.skill.name, e.eventId)),
          (← drain 3 r.2).map (fun e => (e.skill.name, e.eventId))))) =
    .ok ([("a", 1)], [("c", 2), ("b", 0)]) := by
  decide +kernel

/-! ## C25 -/

/-- C25.  The events without an explicit id get pairwise different ids, in the order 0, 1, 2, ... of
their addition. -/
theorem C25_ids (n : ℕ) (as : List NewEvent) (es : List Event) (h : EventsOf n as es)
    (hnone : ∀ a ∈ as, a.eventId = none) : es.map (·.eventId) = (List.range as.length).map (n + ·) := by
  induction h with
  | nil => rfl
  | given n i a e as es h1 _ _ _ _ =>
    rw [hnone a (by simp)] at h1
    cases h1
  | fresh n a e as es _ h2 _ _ ih =>
    rw [List.map_cons, List.length_cons, List.range_succ_eq_map, List.map_cons, h2,
      ih (fun b hb => hnone b (by simp [hb])), List.map_map]
    simp only [Nat.add_zero, List.cons.injEq, true_and]
    apply List.map_congr_left
    intro x _
    simp only [Function.comp]
    omega

/-- C25.  For every sequence of additions: the ids are as in `C25_ids`; the first damage time is the
least application time of a damaging event, and `None` exactly if there is none; the last event time
is the greatest application time, and `None` exactly if there is no event. -/
theorem C25_times (as : List NewEvent)
    (hok : ∀ a ∈ as, ∃ s, a.skill.getDamageSpec a.modifier = .ok s) :
    ∃ evs es, runQueue {} (as.map .add) = .ok ([], evs) ∧ EventsOf 0 as es ∧ evs.q.Perm es ∧
      (∃ first, evs.getFirstDamageTime = .ok first ∧
        (first = none ↔ ∀ a ∈ as, ¬ NewEvent.Damaging a) ∧
        ∀ t, first = some t →
          IsLeast {x | ∃ a ∈ as, NewEvent.Damaging a ∧ NewEvent.appliedAt a = x} t) ∧
      (evs.getLastEventTime = none ↔ as = []) ∧
      ∀ t, evs.getLastEventTime = some t → IsGreatest {x | ∃ a ∈ as, NewEvent.appliedAt a = x} t := by
  obtain ⟨evs, h1, es, h2, h3⟩ := adds_spec as
  have hf := eventsOf_forall₂ h2
  have hdam : ∀ {a : NewEvent} {e : Event}, NewEvent.Becomes a e →
      e.skill.getDamageSpec e.modifier = a.skill.getDamageSpec a.modifier := by
    intro a e hb
    rw [hb.2.2.1, hb.2.2.2.1]
  obtain ⟨first, f1, f2, f3⟩ := firstDamage_fold evs.q none (by
    intro e he
    obtain ⟨a, ha, hb⟩ := forall₂_mem_right hf (h3.subset he)
    rw [hdam hb]
    exact hok a ha)
  obtain ⟨l1, l2⟩ := lastEvent_fold evs.q none
  have hset : {x | ∃ e ∈ evs.q, (∃ s, e.skill.getDamageSpec e.modifier = .ok (some s)) ∧
      Events.applicationTime e = x} = {x | ∃ a ∈ as, NewEvent.Damaging a ∧ NewEvent.appliedAt a = x} := by
    ext x
    constructor
    · rintro ⟨e, he, hd, hx⟩
      obtain ⟨a, ha, hb⟩ := forall₂_mem_right hf (h3.subset he)
      rw [hdam hb] at hd
      exact ⟨a, ha, hd, by rw [← becomes_appliedAt hb, hx]⟩
    · rintro ⟨a, ha, hd, hx⟩
      obtain ⟨e, he, hb⟩ := forall₂_mem_left hf ha
      refine ⟨e, h3.symm.subset he, ?_, by rw [becomes_appliedAt hb, hx]⟩
      rw [hdam hb]
      exact hd
  have hset2 : {x | ∃ e ∈ evs.q, Events.applicationTime e = x} =
      {x | ∃ a ∈ as, NewEvent.appliedAt a = x} := by
    ext x
    constructor
    · rintro ⟨e, he, hx⟩
      obtain ⟨a, ha, hb⟩ := forall₂_mem_right hf (h3.subset he)
      exact ⟨a, ha, by rw [← becomes_appliedAt hb, hx]⟩
    · rintro ⟨a, ha, hx⟩
      obtain ⟨e, he, hb⟩ := forall₂_mem_left hf ha
      exact ⟨e, h3.symm.subset he, by rw [becomes_appliedAt hb, hx]⟩
  refine ⟨evs, es, h1, h2, h3, ⟨first, f1, ?_, ?_⟩, ?_, ?_⟩
  · rw [f2]
    constructor
    · rintro ⟨_, h⟩ a ha ⟨s, hd⟩
      obtain ⟨e, he, hb⟩ := forall₂_mem_left hf ha
      have := h e (h3.symm.subset he)
      rw [hdam hb, hd] at this
      cases this
    · intro h
      refine ⟨rfl, ?_⟩
      intro e he
      obtain ⟨a, ha, hb⟩ := forall₂_mem_right hf (h3.subset he)
      rw [hdam hb]
      obtain ⟨s, hs⟩ := hok a ha
      cases s with
      | none => exact hs
      | some s => exact absurd ⟨s, hs⟩ (h a ha)
  · intro t ht
    have := f3 t ht
    rw [hset] at this
    simpa using this
  · have he : evs.getLastEventTime = none ↔ evs.q = [] := by
      unfold Events.getLastEventTime
      rw [l1]
      simp
    rw [he]
    constructor
    · intro h
      rw [h] at h3
      have hes := h3.symm.eq_nil
      subst hes
      cases hf
      rfl
    · rintro rfl
      cases hf
      exact h3.eq_nil
  · intro t ht
    have := l2 t ht
    rw [hset2] at this
    simpa using this

example : ((runQueue {} ([exampleAdd "b" 5 1 none false, exampleAdd "a" 5 2 (some 7) true,
      exampleAdd "c" 3 6 (some 6) true].map .add)).bind (fun r => do
        return (r.2.q.map (·.eventId), ← r.2.getFirstDamageTime, r.2.getLastEventTime))) =
    .ok ([2, 0, 1], some 6, some 7) := by
  decide +kernel

end Ama
