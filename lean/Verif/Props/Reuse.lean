import Verif.Lemmas.Reuse
import Verif.Examples.Damage

/-!
# Using a damage builder for a second timeline (C94)
-/

namespace Ama

open Spec DamageBuilder

/-- C94 is false: a damage builder keeps the effects of the timelines it has processed.  A builder that
has processed a timeline with a buff reports, for a second timeline consisting of a single hit, a hit
under that buff; a new builder reports the hit without it. -/
theorem C94_reuse_refuted :
    ∃ (stats : Stats) (lib : SkillLibrary) (db db1 : DamageBuilder) (events1 events2 : Events)
      (xs1 : List DamageInstance) (x y : DamageInstance),
      DamageBuilder.init stats lib = .ok db ∧ Timeline events1 ∧ Timeline events2 ∧
      db.getDamageInstances events1 = .ok (xs1, db1) ∧
      (db.getDamageInstances events2).map Prod.fst = .ok [x] ∧
      (db1.getDamageInstances events2).map Prod.fst = .ok [y] ∧
      x.skill.name = y.skill.name ∧ x.time = y.time ∧ x.buffs.damageMult = 1 ∧ y.buffs.damageMult = 11 / 10 := by
  have h : Ex.okAnd (runQueue {} [Ex.ev 0 0 Ex.cheer]) (fun p1 =>
      Ex.okAnd (runQueue {} [Ex.ev 1000 1500 Ex.hit]) (fun p2 =>
        Ex.okAnd (Ex.fresh.getDamageInstances p1.2) (fun r1 =>
          Ex.okAnd (Ex.fresh.getDamageInstances p2.2) (fun r2 =>
            Ex.okAnd (r1.2.getDamageInstances p2.2) (fun r3 =>
              decide (r2.1.map (fun x => (x.skill.name, x.time, x.buffs.damageMult)) =
                  [("Hit", 1500, 1)] ∧
                r3.1.map (fun x => (x.skill.name, x.time, x.buffs.damageMult)) =
                  [("Hit", 1500, 11 / 10)])))))) = true := by decide +kernel
  obtain ⟨⟨o1, events1⟩, h1, h⟩ := Ex.ok_of h
  obtain ⟨⟨o2, events2⟩, h2, h⟩ := Ex.ok_of h
  obtain ⟨⟨xs1, db1⟩, h3, h⟩ := Ex.ok_of h
  obtain ⟨⟨xs, dbx⟩, h4, h⟩ := Ex.ok_of h
  obtain ⟨⟨ys, dby⟩, h5, h⟩ := Ex.ok_of h
  obtain ⟨h6, h7⟩ := of_decide_eq_true h
  obtain ⟨x, rfl, hx⟩ := List.map_eq_singleton_iff.1 h6
  obtain ⟨y, rfl, hy⟩ := List.map_eq_singleton_iff.1 h7
  simp only [Prod.mk.injEq] at hx hy
  refine ⟨Ex.stats, Ex.lib, Ex.fresh, db1, events1, events2, xs1, x, y, by decide +kernel,
    .inr ⟨_, _, h1⟩, .inr ⟨_, _, h2⟩, h3, by rw [h4]; rfl, by rw [h5]; rfl, ?_, ?_, hx.2.2, hy.2.2⟩
  · rw [hx.1, hy.1]
  · rw [hx.2.1, hy.2.1]

/-- C94, partial: if no skill of the first timeline has lasting consequences, then the builder computes
for every further timeline exactly what a new builder computes for it, including exceptions. -/
theorem C94_reuse_partial {stats : Stats} {lib : SkillLibrary} {db db1 : DamageBuilder}
    {events1 : Events} {xs1 : List DamageInstance} (hi : DamageBuilder.init stats lib = .ok db)
    (ht : Timeline events1) (hn : ∀ e ∈ events1.q, LeavesNothing e.skill)
    (h1 : db.getDamageInstances events1 = .ok (xs1, db1)) (events2 : Events) :
    (db1.getDamageInstances events2).map Prod.fst = (db.getDamageInstances events2).map Prod.fst := by
  have hc : Reuse.Clean db := by
    unfold DamageBuilder.init at hi
    obtain ⟨p, -, hi⟩ := Py.bind_eq_ok.1 hi
    obtain ⟨r, -, hi⟩ := Py.bind_eq_ok.1 hi
    obtain ⟨b, -, hi⟩ := Py.bind_eq_ok.1 hi
    rw [← Except.ok.inj hi]
    refine ⟨rfl, fun _ => rfl, ?_⟩
    intro kv hkv
    obtain ⟨c, -, rfl⟩ := List.mem_map.1 hkv
    rfl
  unfold getDamageInstances at h1
  obtain ⟨s, h2, h3⟩ := Py.bind_eq_ok.1 h1
  have h4 := Reuse.loop_clean _ (s := { db := db, events := events1 }) (timeline_ok ht) hc hn h2
  rw [(Prod.mk.inj (Except.ok.inj h3)).2] at h4
  have h5 := Reuse.getDamageInstances_same h4 events2
  match hx : db.getDamageInstances events2, hy : db1.getDamageInstances events2 with
  | .ok a, .ok b =>
    rw [hx, hy] at h5
    show Except.ok b.1 = Except.ok a.1
    rw [show a.1 = b.1 from h5.1]
  | .error e, .error e' =>
    rw [hx, hy] at h5
    show Except.error e' = Except.error e
    rw [show e = e' from h5]
  | .ok a, .error e => rw [hx, hy] at h5; exact h5.elim
  | .error e, .ok a => rw [hx, hy] at h5; exact h5.elim

/-- The partial theorem applies: a first timeline with hits on two targets, and a second one with a buff
and hits. -/
example : ∃ stats lib db db1 events1 events2 xs1 xs2, DamageBuilder.init stats lib = .ok db ∧
    Timeline events1 ∧ (∀ e ∈ events1.q, LeavesNothing e.skill) ∧
    db.getDamageInstances events1 = .ok (xs1, db1) ∧ xs1.length = 4 ∧
    (db1.getDamageInstances events2).map Prod.fst = .ok xs2 ∧
    xs2.map (fun x => x.buffs.damageMult) = [11 / 10, 11 / 10] := by
  have h : Ex.okAnd (runQueue {} [Ex.ev 0 500 Ex.hit ["A", "B"], Ex.ev 2500 3000 Ex.hit ["A", "B"]])
      (fun p1 => Ex.okAnd (runQueue {} [Ex.ev 0 0 Ex.cheer, Ex.ev 10 1500 Ex.hit,
          Ex.ev 2500 3000 Ex.hit]) (fun p2 =>
        Ex.okAnd (Ex.fresh.getDamageInstances p1.2) (fun r1 =>
          Ex.okAnd (r1.2.getDamageInstances p2.2) (fun r2 =>
            decide (p1.2.q.map (fun e => e.skill) = [Ex.hit, Ex.hit] ∧ r1.1.length = 4 ∧
              r2.1.map (fun x => x.buffs.damageMult) = [11 / 10, 11 / 10]))))) = true := by
    decide +kernel
  obtain ⟨⟨o1, events1⟩, h1, h⟩ := Ex.ok_of h
  obtain ⟨⟨o2, events2⟩, h2, h⟩ := Ex.ok_of h
  obtain ⟨⟨xs1, db1⟩, h3, h⟩ := Ex.ok_of h
  obtain ⟨⟨xs, dbx⟩, h4, h⟩ := Ex.ok_of h
  obtain ⟨h5, h6, h7⟩ := of_decide_eq_true h
  refine ⟨Ex.stats, Ex.lib, Ex.fresh, db1, events1, events2, xs1, xs, by decide +kernel,
    .inr ⟨_, _, h1⟩, ?_, h3, h6, by rw [h4]; rfl, h7⟩
  intro e he
  have : e.skill = Ex.hit := by
    have := List.mem_map_of_mem (f := fun e : Event => e.skill) he
    rw [show events1.q.map (fun e => e.skill) = _ from h5] at this
    simpa using this
  rw [this]
  refine ⟨?_, ?_, ?_, ?_⟩ <;> rintro m r h <;> exact (Except.ok.inj h).symm

end Ama
