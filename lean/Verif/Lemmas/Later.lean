import Verif.Lemmas.Reuse
import Verif.Spec.Later

/-!
# Adding to the end of a timeline

The loop on the longer timeline does the same as the loop on the shorter one until that one is done.
-/

namespace Ama

open Spec DamageBuilder Reuse

namespace Later

/-- The second state has the same builder and the same instances, and in addition the events in
`later` to process. -/
structure Ext (later : List Event) (s t : DamageState) : Prop where
  db : s.db = t.db
  q : s.q = t.q
  ok : s.events.Ok
  ok' : t.events.Ok
  events : t.events.q.Perm (s.events.q ++ later)

def ExtAcc (later : List Event) (x y : DamageState × SkillModifier) : Prop :=
  Ext later x.1 y.1 ∧ x.2 = y.2

variable {later : List Event}

theorem applyTarget_ext (e : Event) (buffs : StatusEffects) (x y : DamageState × SkillModifier)
    (ti : String × ℕ) (h : ExtAcc later x y) :
    Rel (ExtAcc later) (applyTarget e buffs x ti) (applyTarget e buffs y ti) := by
  obtain ⟨s, m⟩ := x
  obtain ⟨s', m'⟩ := y
  obtain ⟨h, rfl⟩ := (h : Ext later s s' ∧ m = m')
  unfold applyTarget
  simp only
  rw [h.db]
  refine (Rel.refl (R := Eq) (fun _ => rfl) _).bind ?_
  rintro ⟨d, m1, db⟩ _ rfl
  simp only
  rw [h.q]
  refine (Rel.refl (R := Eq) (fun _ => rfl) _).bind ?_
  rintro q _ rfl
  exact ⟨⟨rfl, rfl, h.ok, h.ok', h.events⟩, rfl⟩

theorem snapshotTarget_ext (e : Event) (sec : ℚ) (p : ℤ) (buffs : SnapStatus) (j c : Bool)
    (x y : DamageState × SkillModifier) (ti : String × ℕ) (h : ExtAcc later x y) :
    Rel (ExtAcc later) (snapshotTarget e sec p buffs j c x ti) (snapshotTarget e sec p buffs j c y ti) := by
  obtain ⟨s, m⟩ := x
  obtain ⟨s', m'⟩ := y
  obtain ⟨h, rfl⟩ := (h : Ext later s s' ∧ m = m')
  unfold snapshotTarget
  simp only
  rw [h.db]
  refine (Rel.refl (R := Eq) (fun _ => rfl) _).bind ?_
  rintro ⟨d, m1, db⟩ _ rfl
  simp only
  obtain ⟨evs, a1, a2, a3, -⟩ := Events.add_spec s.events h.ok
    { priority := p, primary := targetTime e.targets.length ti.2 sec, secondary := none,
      skill := e.skill, modifier := m1, snapshotBuffs := buffs, snapshotDebuffs := d,
      eventId := some e.eventId, jobResourcesAdded := true, jobConditionalProcessed := j,
      comboConditionalProcessed := c, targets := [ti.1] }
  obtain ⟨evs', b1, b2, b3, -⟩ := Events.add_spec s'.events h.ok'
    { priority := p, primary := targetTime e.targets.length ti.2 sec, secondary := none,
      skill := e.skill, modifier := m1, snapshotBuffs := buffs, snapshotDebuffs := d,
      eventId := some e.eventId, jobResourcesAdded := true, jobConditionalProcessed := j,
      comboConditionalProcessed := c, targets := [ti.1] }
  rw [a1, b1]
  refine ⟨⟨rfl, h.q, a2, b2, ?_⟩, rfl⟩
  refine b3.trans (((h.events).cons _).trans ?_)
  exact (a3.symm.append_right later)

theorem applyEvent_ext {s t : DamageState} (h : Ext later s t) (e : Event) :
    Rel (Ext later) (applyEvent s e) (applyEvent t e) := by
  unfold applyEvent
  simp only
  rw [h.db]
  refine (Rel.refl (R := Eq) (fun _ => rfl) _).bind ?_
  rintro ⟨m, d⟩ _ rfl
  refine (Rel.refl (R := Eq) (fun _ => rfl) _).bind ?_
  rintro d _ rfl
  refine (Rel.refl (R := Eq) (fun _ => rfl) _).bind ?_
  rintro ⟨m, d⟩ _ rfl
  refine (Rel.refl (R := Eq) (fun _ => rfl) _).bind ?_
  rintro ⟨b, m, d⟩ _ rfl
  refine (Rel.foldlM (applyTarget_ext e b) _ (s := ({ s with db := d }, m)) (t := ({ t with db := d }, m))
    ⟨⟨rfl, h.q, h.ok, h.ok', h.events⟩, rfl⟩).bind ?_
  rintro ⟨s1, m⟩ ⟨s2, _⟩ ⟨h1, h2⟩
  obtain rfl : m = _ := h2
  have h1 : Ext later s1 s2 := h1
  simp only
  rw [h1.db]
  refine (Rel.refl (R := Eq) (fun _ => rfl) _).bind ?_
  rintro se _ rfl
  exact ⟨by simp [h1.db], h1.q, h1.ok, h1.ok', h1.events⟩

theorem snapshotEvent_ext {s t : DamageState} (h : Ext later s t) (e : Event) (sec : ℚ) :
    Rel (Ext later) (snapshotEvent s e sec) (snapshotEvent t e sec) := by
  unfold snapshotEvent
  simp only
  rw [h.db]
  refine (Rel.refl (R := Eq) (fun _ => rfl) _).bind ?_
  rintro ⟨b, m, d⟩ _ rfl
  refine (Rel.refl (R := Eq) (fun _ => rfl) _).bind ?_
  rintro ⟨m, d⟩ _ rfl
  refine (Rel.refl (R := Eq) (fun _ => rfl) _).bind ?_
  rintro ⟨m, d⟩ _ rfl
  refine (Rel.refl (R := Eq) (fun _ => rfl) _).bind ?_
  rintro d _ rfl
  refine (Rel.foldlM (snapshotTarget_ext e sec _ b _ _) _ (s := ({ s with db := d }, m)) (t := ({ t with db := d }, m))
    ⟨⟨rfl, h.q, h.ok, h.ok', h.events⟩, rfl⟩).bind ?_
  rintro ⟨s1, m⟩ ⟨s2, _⟩ ⟨h1, -⟩
  exact h1

theorem processEvent_ext {s t : DamageState} (h : Ext later s t) (e : Event) :
    Rel (Ext later) (processEvent s e) (processEvent t e) := by
  unfold processEvent
  have h1 : Ext later { s with db := { s.db with se := s.db.se.expire e.primary } }
      { t with db := { t.db with se := t.db.se.expire e.primary } } :=
    ⟨by simp [h.db], h.q, h.ok, h.ok', h.events⟩
  simp only
  split
  · exact applyEvent_ext h1 e
  · exact snapshotEvent_ext h1 e _

/-! ## Places -/

/-- Processing an event only uses up the place at which it is processed. -/
theorem processEvent_places {s s' : DamageState} {e : Event} (ho : s.events.Ok)
    (h : processEvent s e = .ok s') :
    ((s'.events.q).flatMap places).Perm ((s.events.q).flatMap places ++ (places e).tail) := by
  unfold processEvent at h
  simp only at h
  cases hsec : e.secondary with
  | none =>
    rw [hsec] at h
    obtain ⟨c1, -⟩ := applyEvent_spec h
    rw [c1]
    simp [places, hsec]
  | some sec =>
    rw [hsec] at h
    obtain ⟨-, -, buffs, es, -, c4, c5⟩ := snapshotEvent_spec (by exact ho) h
    refine (c5.flatMap_right _).trans ?_
    rw [List.flatMap_append]
    refine List.Perm.append_left _ (List.Perm.of_eq ?_)
    have : ∀ (l : List (String × ℕ)) (es : List Event),
        List.Forall₂ (Snapped e sec (Utils.transformTimeToPrio sec + (Utils.transformTimeToPrio e.primary - e.priority))
          buffs (s.db.se.expire e.primary) e.targets.Nodup) l es →
        es.flatMap places = l.map (fun _ =>
          toLex (Utils.transformTimeToPrio sec + (Utils.transformTimeToPrio e.primary - e.priority), e.skill.name)) := by
      intro l es hf
      induction hf with
      | nil => rfl
      | cons h1 _ ih =>
        rw [List.flatMap_cons, ih]
        simp [places, h1.1, h1.2.2.1, h1.2.2.2.1]
    rw [this _ _ c4]
    simp only [places, hsec, List.tail_cons]
    rw [List.map_const', List.map_const', List.length_zipIdx]

theorem before_place {a b : Event} (h : Before a b) :
    (toLex (a.priority, a.skill.name) : Place) ≤ toLex (b.priority, b.skill.name) := before_iff.1 h

theorem place_mem (e : Event) : toLex (e.priority, e.skill.name) ∈ places e := by simp [places]

/-- Both queues give the same event. -/
theorem getNext_ext {s t : DamageState} (h : Ext later s t) (h1 : OneAtATime s.events.q)
    (h2 : AllAfter s.events.q later) {e e' : Event} {evs evs' : Events}
    (hn : s.events.getNext = .ok (e, evs)) (hn' : t.events.getNext = .ok (e', evs')) :
    e' = e ∧ Ext later { s with events := evs } { t with events := evs' } := by
  obtain ⟨o1, o2, o3, -⟩ := Events.getNext_spec h.ok hn
  obtain ⟨p1, p2, p3, -⟩ := Events.getNext_spec h.ok' hn'
  have hes : e ∈ s.events.q := o2.mem_iff.2 (by simp)
  have het : e ∈ t.events.q := h.events.mem_iff.2 (by simp [hes])
  have he't : e' ∈ s.events.q ++ later := h.events.mem_iff.1 (p2.mem_iff.2 (by simp))
  have hle := before_place (p3 e het)
  have he's : e' ∈ s.events.q := by
    rcases List.mem_append.1 he't with h | h
    · exact h
    · exact absurd (h2 e hes _ (place_mem e) e' h) (not_lt.2 hle)
  have heq : e' = e := by
    have hge := before_place (o3 e' he's)
    rcases List.mem_cons.1 (o2.mem_iff.1 he's) with h | h
    · exact h
    · exfalso
      unfold OneAtATime at h1
      rw [(o2.flatMap_right places).nodup_iff, List.flatMap_cons, List.nodup_append] at h1
      exact h1.2.2 _ (place_mem e) _ (List.mem_flatMap.2 ⟨e', h, place_mem e'⟩) (le_antisymm hge hle)
  subst heq
  refine ⟨rfl, h.db, h.q, o1, p1, ?_⟩
  have : (e' :: evs'.q).Perm (e' :: (evs.q ++ later)) :=
    p2.symm.trans (h.events.trans (o2.append_right later))
  exact (List.perm_cons _).1 this

theorem loop_ext (n k : ℕ) {s t : DamageState} (h : Ext later s t) (h1 : OneAtATime s.events.q)
    (h2 : AllAfter s.events.q later) (hn : (s.events.q.map rounds).sum ≤ n) :
    (∀ x, loop n s = .error x → loop (n + k) t = .error x) ∧
    ∀ s', loop n s = .ok s' → ∃ t' j, loop (n + k) t = loop j t' ∧ Ext later s' t' ∧ s'.events.q = [] := by
  induction n generalizing s t with
  | zero =>
    have he : s.events.q = [] := by
      cases hq : s.events.q with
      | nil => rfl
      | cons e q =>
        rw [hq] at hn
        have := rounds_pos e
        simp at hn
        omega
    have e0 : loop 0 s = .ok s := by rw [loop, if_pos (isEmpty_iff.2 he)]
    rw [e0]
    refine ⟨fun x hx => (by cases hx), ?_⟩
    intro s' hs
    cases hs
    exact ⟨t, 0 + k, rfl, h, he⟩
  | succ n ih =>
    by_cases he : s.events.q = []
    · rw [loop, if_pos (isEmpty_iff.2 he)]
      refine ⟨fun x hx => (by cases hx), ?_⟩
      intro s' hs
      cases hs
      exact ⟨t, n + 1 + k, rfl, h, he⟩
    · have he' : t.events.q ≠ [] := by
        intro h0
        have := h.events
        rw [h0] at this
        have := (List.append_eq_nil_iff.1 (List.nil_perm.1 this)).1
        exact he this
      obtain ⟨e, evs, hg⟩ := Events.getNext_total he
      obtain ⟨e', evs', hg'⟩ := Events.getNext_total he'
      obtain ⟨rfl, hx⟩ := getNext_ext h h1 h2 hg hg'
      obtain ⟨o1, o2, -, -⟩ := Events.getNext_spec h.ok hg
      have hs : loop (n + 1) s = (processEvent { s with events := evs } e' >>= loop n) := by
        rw [loop, if_neg (by rw [isEmpty_iff]; exact he), hg]
        rfl
      have ht : loop (n + 1 + k) t = (processEvent { t with events := evs' } e' >>= loop (n + k)) := by
        rw [Nat.add_right_comm, loop, if_neg (by rw [isEmpty_iff]; exact he'), hg']
        rfl
      rw [hs, ht]
      have hp := processEvent_ext hx e'
      cases hs1 : processEvent { s with events := evs } e' with
      | error x =>
        cases ht1 : processEvent { t with events := evs' } e' with
        | error y =>
          rw [hs1, ht1] at hp
          obtain rfl : x = y := hp
          refine ⟨fun z hz => hz, fun s' hs' => ?_⟩
          cases hs'
        | ok t1 =>
          rw [hs1, ht1] at hp
          exact hp.elim
      | ok s1 =>
        cases ht1 : processEvent { t with events := evs' } e' with
        | error y =>
          rw [hs1, ht1] at hp
          exact hp.elim
        | ok t1 =>
          rw [hs1, ht1] at hp
          have hr := processEvent_rounds (s := { s with events := evs }) o1 hs1
          rw [sum_rounds_perm o2] at hn
          simp only [List.map_cons, List.sum_cons] at hn hr
          have hpl := processEvent_places (s := { s with events := evs }) o1 hs1
          have hsub : ∀ p ∈ s1.events.q.flatMap places, p ∈ s.events.q.flatMap places := by
            intro p hp
            rw [(o2.flatMap_right places).mem_iff, List.flatMap_cons]
            rcases List.mem_append.1 (hpl.mem_iff.1 hp) with h | h
            · exact List.mem_append_right _ h
            · exact List.mem_append_left _ (List.mem_of_mem_tail h)
          refine ih hp ?_ ?_ (by omega)
          · unfold OneAtATime at h1 ⊢
            rw [hpl.nodup_iff]
            rw [(o2.flatMap_right places).nodup_iff, List.flatMap_cons] at h1
            refine (List.perm_append_comm.nodup_iff).2 (h1.sublist ?_)
            exact (List.tail_sublist _).append_right _
          · intro a ha p hp e2 he2
            obtain ⟨b, hb, hpb⟩ := List.mem_flatMap.1 (hsub p (List.mem_flatMap.2 ⟨a, ha, hp⟩))
            exact h2 b hb p hpb e2 he2

theorem forall₂_right {α β : Type} {R : α → β → Prop} {l : List α} {m : List β}
    (h : List.Forall₂ R l m) {b : β} (hb : b ∈ m) : ∃ a ∈ l, R a b := by
  induction h with
  | nil => simp at hb
  | cons h1 _ ih =>
    rcases List.mem_cons.1 hb with rfl | hb
    · exact ⟨_, by simp, h1⟩
    · obtain ⟨a, ha, hr⟩ := ih hb
      exact ⟨a, by simp [ha], hr⟩

/-- What remains only adds hits of the events that remain. -/
theorem reaches_rest {s s' : DamageState} {tr : List (DamageState × Event)} (h : Reaches s tr s')
    (ho : s.events.Ok) (hend : s'.events.q = []) :
    ∃ zs, s'.q.Perm (s.q ++ zs) ∧ ∀ z ∈ zs, ∃ h ∈ hitsOf s.events.q, h.Yields z := by
  obtain ⟨xs, ⟨ys, h1, h2⟩, h3⟩ := reaches_spec h ho hend
  refine ⟨_, h3, ?_⟩
  intro z hz
  have hz := (List.mem_filter.1 hz).1
  obtain ⟨a, ha, hr⟩ := forall₂_right h1 (h2.mem_iff.2 hz)
  exact ⟨a, ha, hr.1⟩

theorem sortBy_perm_append {a b : List DamageInstance} {zs : List DamageInstance}
    (h : a.Perm (b ++ zs)) : (sortBy (·.time) a).Perm (sortBy (·.time) b ++ zs) :=
  (sortBy_perm _ _).trans (h.trans ((sortBy_perm _ _).symm.append_right zs))

/-- What the builder computes for a timeline with events added after all others. -/
theorem getDamageInstances_ext {db : DamageBuilder} {events events' : Events}
    (ho : events.Ok) (ho' : events'.Ok) (hq : events'.q.Perm (events.q ++ later))
    (h1 : OneAtATime events.q) (h2 : AllAfter events.q later) :
    (∀ x, db.getDamageInstances events = .error x → db.getDamageInstances events' = .error x) ∧
    ∀ xs db1, db.getDamageInstances events = .ok (xs, db1) →
      ∀ ys db2, db.getDamageInstances events' = .ok (ys, db2) →
      ∃ zs, ys.Perm (xs ++ zs) ∧ ∀ z ∈ zs, ∃ h ∈ hitsOf later, h.Yields z := by
  have hw : ∀ evs : Events, (evs.q.map work).sum = (evs.q.map rounds).sum := by
    intro evs
    rw [funext work_eq]
  have hsum : (events'.q.map work).sum = (events.q.map work).sum + (later.map work).sum := by
    rw [hw, sum_rounds_perm hq, List.map_append, List.sum_append, ← hw, ← funext work_eq]
  have hl := loop_ext (events.q.map work).sum (later.map work).sum
    (s := { db := db, events := events }) (t := { db := db, events := events' })
    ⟨rfl, rfl, ho, ho', hq⟩ h1 h2 (by rw [hw])
  unfold getDamageInstances
  rw [hsum]
  constructor
  · intro x hx
    rcases Py.bind_eq_error.1 hx with h | ⟨s, -, h⟩
    · rw [hl.1 x h]
      rfl
    · cases h
  · intro xs db1 hx ys db2 hy
    obtain ⟨s, hs, hx⟩ := Py.bind_eq_ok.1 hx
    obtain ⟨t, ht, hy⟩ := Py.bind_eq_ok.1 hy
    cases hx
    cases hy
    obtain ⟨t', j, e1, e2, e3⟩ := hl.2 s hs
    rw [e1] at ht
    obtain ⟨tr, r1, r2⟩ := loop_ok ht
    obtain ⟨zs, z1, z2⟩ := reaches_rest r1 e2.ok' r2
    refine ⟨zs, sortBy_perm_append (by rw [e2.q]; exact z1), ?_⟩
    intro z hz
    obtain ⟨h, hh, hy⟩ := z2 z hz
    have := e2.events
    rw [e3, List.nil_append] at this
    exact ⟨h, (hitsOf_perm this).mem_iff.1 hh, hy⟩

end Later

end Ama
