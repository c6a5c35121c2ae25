import Verif.Lemmas.Later
import Verif.Examples.Damage

/-!
# Adding to the end of a timeline (C96)
-/

namespace Ama

open Spec DamageBuilder

namespace Ex

/-- An ability that increases the damage of the next two hits. -/
def twice : Skill :=
  { name := "Twice", isGCD := some false
    timingSpec := .single (some { baseCastTime := 0 })
    buffSpec := .single (some (StatusEffectSpec.make
      { duration := ((30000 : ℚ) : WithTop ℚ), damageMult := 11 / 10, numUses := 2
        skillAllowlist := some ["Hit"] })) }

/-- The arguments of an operation of `Ex.ev`. -/
def lateHit : NewEvent :=
  { priority := Utils.transformTimeToPrio 5000, primary := 5000, secondary := some 5000, skill := hit,
    modifier := {}, snapshotBuffs := .flag true, snapshotDebuffs := .flag true }

theorem runQueue_add {ops : List QueueOp} {evs evs1 evs2 : Events} {out : List Event} {a : NewEvent}
    (h : runQueue evs ops = .ok (out, evs1)) (ha : evs1.add a = .ok evs2) :
    runQueue evs (ops ++ [.add a]) = .ok (out, evs2) := by
  induction ops generalizing evs out with
  | nil =>
    cases h
    simp only [List.nil_append, runQueue, ha, Py.ok_bind]
  | cons op ops ih =>
    cases op with
    | add b =>
      simp only [List.cons_append, runQueue] at h ⊢
      obtain ⟨e1, h1, h2⟩ := Py.bind_eq_ok.1 h
      rw [h1]
      exact ih h2
    | next =>
      simp only [List.cons_append, runQueue] at h ⊢
      obtain ⟨⟨e1, evs'⟩, h1, h⟩ := Py.bind_eq_ok.1 h
      obtain ⟨⟨o2, evs''⟩, h2, h⟩ := Py.bind_eq_ok.1 h
      cases h
      rw [h1, Py.ok_bind, ih h2]
      rfl

/-- Events of a higher priority come after everything else. -/
theorem allAfter_of {q later : List Event}
    (h : ∀ p ∈ (q.flatMap places).map (fun p => (ofLex p).1), ∀ n ∈ later.map (·.priority), p < n) :
    AllAfter q later := by
  intro e he p hp e' he'
  have := h _ (List.mem_map_of_mem (List.mem_flatMap.2 ⟨e, he, hp⟩)) _ (List.mem_map_of_mem he')
  exact Prod.Lex.toLex_lt_toLex.2 (.inl this)

/-- Adding `lateHit` to a timeline. -/
theorem later_of (ops : List QueueOp)
    (P : Events → List DamageInstance → List DamageInstance → Prop) [∀ a b c, Decidable (P a b c)]
    (h : okAnd (runQueue {} ops) (fun p =>
      okAnd (p.2.add lateHit) (fun evs =>
        okAnd (fresh.getDamageInstances p.2) (fun r =>
          okAnd (fresh.getDamageInstances evs) (fun r' =>
            decide ((∀ n ∈ (p.2.q.flatMap places).map (fun p => (ofLex p).1), n < 5000000) ∧
              P p.2 r.1 r'.1))))) = true) :
    ∃ events events' later xs ys, Timeline events ∧ Timeline events' ∧ later ≠ [] ∧
      events'.q.Perm (events.q ++ later) ∧ AllAfter events.q later ∧
      (fresh.getDamageInstances events).map Prod.fst = .ok xs ∧
      (fresh.getDamageInstances events').map Prod.fst = .ok ys ∧ P events xs ys := by
  obtain ⟨⟨out, events⟩, h1, h⟩ := ok_of h
  obtain ⟨events', h2, h⟩ := ok_of h
  obtain ⟨⟨xs, db1⟩, h3, h⟩ := ok_of h
  obtain ⟨⟨ys, db2⟩, h4, h⟩ := ok_of h
  obtain ⟨h5, h6⟩ := of_decide_eq_true h
  have ht : Timeline events := .inr ⟨_, _, h1⟩
  obtain ⟨evs, a1, -, a3, -⟩ := Events.add_spec events (timeline_ok ht) lateHit
  rw [h2] at a1
  cases a1
  refine ⟨events, events', [Events.mkEvent lateHit (NewEvent.idWith lateHit events.eventId)], xs, ys, ht,
    .inr ⟨_, _, runQueue_add h1 h2⟩, by simp, a3.trans (List.perm_append_comm (l₁ := [_])), allAfter_of ?_,
    by rw [h3]; rfl, by rw [h4]; rfl, h6⟩
  intro p hp n hn
  simp only [List.map_cons, List.map_nil, List.mem_singleton] at hn
  subst hn
  have : (Events.mkEvent lateHit (NewEvent.idWith lateHit events.eventId)).priority = 5000000 := by
    show Utils.transformTimeToPrio 5000 = _
    decide +kernel
  rw [this]
  exact h5 p hp

end Ex

/-- C96 is false: adding a hit at the end of a timeline can change which of the earlier hits a buff
is used up by.  The hits of a skill on four targets wait in the queue at the same place, and in which
order they leave it depends on what else is in the queue.  A buff for the next two hits goes to the
first and the third target; with one more hit three seconds later, to the first and the second. -/
theorem C96_later_refuted :
    ∃ (db : DamageBuilder) (events events' : Events) (later : List Event) (xs ys : List DamageInstance),
      DamageBuilder.init Ex.stats Ex.lib = .ok db ∧ Timeline events ∧ Timeline events' ∧
      events'.q.Perm (events.q ++ later) ∧ AllAfter events.q later ∧
      (db.getDamageInstances events).map Prod.fst = .ok xs ∧
      (db.getDamageInstances events').map Prod.fst = .ok ys ∧
      xs.map (fun x => (x.time, x.target, x.buffs.damageMult)) =
        [(2000, "A", 11 / 10), (2135, "B", 1), (2270, "C", 11 / 10), (2405, "D", 1)] ∧
      ys.map (fun x => (x.time, x.target, x.buffs.damageMult)) =
        [(2000, "A", 11 / 10), (2135, "B", 11 / 10), (2270, "C", 1), (2405, "D", 1),
          (5000, SimConsts.DEFAULT_TARGET, 1)] := by
  obtain ⟨events, events', later, xs, ys, h1, h2, -, h3, h4, h5, h6, h7, h8⟩ := Ex.later_of
    [Ex.ev 0 0 Ex.twice, Ex.ev 1000 2000 Ex.hit ["A", "B", "C", "D"] false true]
    (fun _ xs ys => xs.map (fun x => (x.time, x.target, x.buffs.damageMult)) =
        [(2000, "A", 11 / 10), (2135, "B", 1), (2270, "C", 11 / 10), (2405, "D", 1)] ∧
      ys.map (fun x => (x.time, x.target, x.buffs.damageMult)) =
        [(2000, "A", 11 / 10), (2135, "B", 11 / 10), (2270, "C", 1), (2405, "D", 1),
          (5000, SimConsts.DEFAULT_TARGET, 1)])
    (by decide +kernel)
  exact ⟨Ex.fresh, events, events', later, xs, ys, by decide +kernel, h1, h2, h3, h4, h5, h6, h7, h8⟩

/-- C96, for timelines in which nothing happens at the same place of the queue: if a timeline is
extended by events that come after everything that happens in it, the damage that it had stays, every
other instance is a hit of one of the new events, and an exception that it raised is still raised.
Missing are timelines with several things at the same place (a delayed hit on several targets, or the
same skill twice at the same time), for which it is false. -/
theorem C96_later_partial {db : DamageBuilder} {events events' : Events} {later : List Event}
    (ht : Timeline events) (ht' : Timeline events') (hq : events'.q.Perm (events.q ++ later))
    (h1 : OneAtATime events.q) (h2 : AllAfter events.q later) :
    (∀ x, db.getDamageInstances events = .error x → db.getDamageInstances events' = .error x) ∧
    ∀ ys db2, db.getDamageInstances events' = .ok (ys, db2) →
      ∃ xs db1 zs, db.getDamageInstances events = .ok (xs, db1) ∧ ys.Perm (xs ++ zs) ∧
        ∀ z ∈ zs, ∃ h ∈ hitsOf later, h.Yields z := by
  obtain ⟨k1, k2⟩ := Later.getDamageInstances_ext (db := db) (timeline_ok ht) (timeline_ok ht') hq h1 h2
  refine ⟨k1, ?_⟩
  intro ys db2 hy
  cases hx : db.getDamageInstances events with
  | error x =>
    rw [k1 x hx] at hy
    cases hy
  | ok r =>
    obtain ⟨zs, z1, z2⟩ := k2 r.1 r.2 hx ys db2 hy
    exact ⟨r.1, r.2, zs, rfl, z1, z2⟩

/-- A buff, a debuff, a hit on two targets that is snapshotted and applied at once, and a delayed hit,
extended by another hit. -/
example : ∃ events events' later xs ys, Timeline events ∧ Timeline events' ∧ later ≠ [] ∧
    events'.q.Perm (events.q ++ later) ∧ AllAfter events.q later ∧
    (Ex.fresh.getDamageInstances events).map Prod.fst = .ok xs ∧
    (Ex.fresh.getDamageInstances events').map Prod.fst = .ok ys ∧
    OneAtATime events.q ∧ xs.length = 3 ∧ ys.length = 4 := by
  exact Ex.later_of [Ex.ev 0 0 Ex.twice, Ex.ev 500 500 Ex.mark, Ex.ev 1000 1000 Ex.hit ["A", "B"],
      Ex.ev 2000 2600 Ex.hit]
    (fun events xs ys => (events.q.flatMap places).Nodup ∧ xs.length = 3 ∧ ys.length = 4)
    (by decide +kernel)

/-- The hypothesis that the new events come after everything else is needed: a buff that is added
before a hit changes its damage. -/
example : ∃ events events' xs ys, Timeline events ∧ Timeline events' ∧
    (Ex.fresh.getDamageInstances events).map Prod.fst = .ok xs ∧
    (Ex.fresh.getDamageInstances events').map Prod.fst = .ok ys ∧
    xs.map (·.buffs.damageMult) = [1] ∧ ys.map (·.buffs.damageMult) = [11 / 10] := by
  have h : Ex.okAnd (runQueue {} [Ex.ev 1000 1000 Ex.hit]) (fun p =>
      Ex.okAnd (runQueue {} [Ex.ev 1000 1000 Ex.hit, Ex.ev 500 500 Ex.cheer]) (fun p' =>
        Ex.okAnd (Ex.fresh.getDamageInstances p.2) (fun r =>
          Ex.okAnd (Ex.fresh.getDamageInstances p'.2) (fun r' =>
            decide (r.1.map (·.buffs.damageMult) = [1] ∧ r'.1.map (·.buffs.damageMult) = [11 / 10]))))) = true := by
    decide +kernel
  obtain ⟨⟨o1, e1⟩, h1, h⟩ := Ex.ok_of h
  obtain ⟨⟨o2, e2⟩, h2, h⟩ := Ex.ok_of h
  obtain ⟨⟨xs, d1⟩, h3, h⟩ := Ex.ok_of h
  obtain ⟨⟨ys, d2⟩, h4, h⟩ := Ex.ok_of h
  exact ⟨e1, e2, xs, ys, .inr ⟨_, _, h1⟩, .inr ⟨_, _, h2⟩, by rw [h3]; rfl, by rw [h4]; rfl,
    of_decide_eq_true h⟩

end Ama
