import Verif.Lemmas.Rename
import Verif.Props.AnotherTime
import Verif.Props.Shift

/-!
# The names of the targets (C105)
-/

namespace Ama

open Spec DamageBuilder

variable {f : String → String} {stats : Stats} {lib : SkillLibrary} {db : DamageBuilder} {events : Events}

/-- An ability that ends the debuff of the other. -/
def Ex.forgive : Skill :=
  { name := "Forgive", isGCD := some false
    timingSpec := .single (some { baseCastTime := 0 })
    buffSpec := .single (some (StatusEffectSpec.make
      { duration := ((10000 : ℚ) : WithTop ℚ), expiresStatusEffects := ["Mark"] })) }

/-- Two names exchanged. -/
def Ex.swap (a b s : String) : String := if s = a then b else if s = b then a else s

theorem Ex.swap_injective (a b : String) : Function.Injective (Ex.swap a b) := by
  have h : ∀ s, Ex.swap a b (Ex.swap a b s) = s := by
    intro s
    unfold Ex.swap
    split_ifs <;> simp_all
  intro x y hxy
  rw [← h x, hxy, h]

theorem Ex.renamed_of {g : String → String} {p q : Events} (h1 : q.q = (renameTimeline g p).q)
    (h2 : q.eventId = p.eventId) : q = renameTimeline g p := by
  cases p
  cases q
  simp only at h1 h2
  rw [h1, h2]
  rfl

/-- C105 is false: a buff that ends a debuff ends it on the target that has the default name.  After a debuff
on the target, such a buff and a hit, the debuff is in effect for the hit just if the target does not have the
default name. -/
theorem C105_names_refuted :
    ∃ (stats : Stats) (lib : SkillLibrary) (db : DamageBuilder) (events : Events) (f : String → String)
      (x y : DamageInstance),
      DamageBuilder.init stats lib = .ok db ∧ Timeline events ∧ Timeline (renameTimeline f events) ∧
      (events.q.map (·.eventId)).Nodup ∧ Function.Injective f ∧
      (db.getDamageInstances events).map Prod.fst = .ok [x] ∧
      (db.getDamageInstances (renameTimeline f events)).map Prod.fst = .ok [y] ∧
      x.debuffs.damageMult = 1 ∧ y.debuffs.damageMult = 21 / 20 := by
  have h : Ex.okAnd (runQueue {} [Ex.ev 0 0 Ex.mark ["Default Target"], Ex.ev 1000 1000 Ex.forgive ["Default Target"],
      Ex.ev 2000 2500 Ex.hit ["Default Target"]]) (fun p1 =>
      Ex.okAnd (runQueue {} [Ex.ev 0 0 Ex.mark ["Boss"], Ex.ev 1000 1000 Ex.forgive ["Boss"],
          Ex.ev 2000 2500 Ex.hit ["Boss"]]) (fun p2 =>
        Ex.okAnd (DamageBuilder.init Ex.stats Ex.lib) (fun db =>
          Ex.okAnd (db.getDamageInstances p1.2) (fun r1 =>
            Ex.okAnd (db.getDamageInstances p2.2) (fun r2 =>
              decide (p2.2.q = (renameTimeline (Ex.swap "Default Target" "Boss") p1.2).q ∧ p2.2.eventId = p1.2.eventId ∧
                (p1.2.q.map (·.eventId)).Nodup ∧
                r1.1.map (fun x => x.debuffs.damageMult) = [1] ∧
                r2.1.map (fun x => x.debuffs.damageMult) = [21 / 20]))))) ) = true := by
    decide +kernel
  obtain ⟨⟨o1, events1⟩, h1, h⟩ := Ex.ok_of h
  obtain ⟨⟨o2, events2⟩, h2, h⟩ := Ex.ok_of h
  obtain ⟨db, h3, h⟩ := Ex.ok_of h
  obtain ⟨⟨xs, dbx⟩, h4, h⟩ := Ex.ok_of h
  obtain ⟨⟨ys, dby⟩, h5, h⟩ := Ex.ok_of h
  obtain ⟨h6, h7, h8, h9, h10⟩ := of_decide_eq_true h
  obtain ⟨x, rfl, hx⟩ := List.map_eq_singleton_iff.1 h9
  obtain ⟨y, rfl, hy⟩ := List.map_eq_singleton_iff.1 h10
  obtain rfl := Ex.renamed_of h6 h7
  exact ⟨Ex.stats, Ex.lib, db, events1, _, x, y, h3, .inr ⟨_, _, h1⟩, .inr ⟨_, _, h2⟩, h8,
    Ex.swap_injective _ _, by rw [h4]; rfl, by rw [h5]; rfl, hx, hy⟩

/-- Hits on two targets at the same time, with the same event id. -/
def Ex.twin (t : ℚ) (target : String) : QueueOp :=
  .add { priority := Utils.transformTimeToPrio t, primary := t, secondary := none, skill := Ex.hit,
         modifier := {}, snapshotBuffs := .flag true, snapshotDebuffs := .flag true, eventId := some 7,
         targets := [target] }

/-- If events share an id, then the order of simultaneous instances depends on the names of the targets. -/
theorem C105_ids_refuted :
    ∃ (stats : Stats) (lib : SkillLibrary) (db : DamageBuilder) (events : Events) (f : String → String)
      (xs ys : List DamageInstance),
      DamageBuilder.init stats lib = .ok db ∧ Timeline events ∧ Timeline (renameTimeline f events) ∧
      Function.Injective f ∧ f SimConsts.DEFAULT_TARGET = SimConsts.DEFAULT_TARGET ∧
      (db.getDamageInstances events).map Prod.fst = .ok xs ∧
      (db.getDamageInstances (renameTimeline f events)).map Prod.fst = .ok ys ∧
      xs.map (·.target) = ["A", "B"] ∧ ys.map (·.target) = ["A", "B"] ∧ f "A" = "B" := by
  have h : Ex.okAnd (runQueue {} [Ex.twin 0 "A", Ex.twin 0 "B"]) (fun p1 =>
      Ex.okAnd (runQueue {} [Ex.twin 0 "B", Ex.twin 0 "A"]) (fun p2 =>
        Ex.okAnd (DamageBuilder.init Ex.stats Ex.lib) (fun db =>
          Ex.okAnd (db.getDamageInstances p1.2) (fun r1 =>
            Ex.okAnd (db.getDamageInstances p2.2) (fun r2 =>
              decide (p2.2.q = (renameTimeline (Ex.swap "A" "B") p1.2).q ∧ p2.2.eventId = p1.2.eventId ∧
                r1.1.map (fun x => x.target) = ["A", "B"] ∧
                r2.1.map (fun x => x.target) = ["A", "B"]))))) ) = true := by
    decide +kernel
  obtain ⟨⟨o1, events1⟩, h1, h⟩ := Ex.ok_of h
  obtain ⟨⟨o2, events2⟩, h2, h⟩ := Ex.ok_of h
  obtain ⟨db, h3, h⟩ := Ex.ok_of h
  obtain ⟨⟨xs, dbx⟩, h4, h⟩ := Ex.ok_of h
  obtain ⟨⟨ys, dby⟩, h5, h⟩ := Ex.ok_of h
  obtain ⟨h6, h7, h9, h10⟩ := of_decide_eq_true h
  obtain rfl := Ex.renamed_of h6 h7
  exact ⟨Ex.stats, Ex.lib, db, events1, _, xs, ys, h3, .inr ⟨_, _, h1⟩, .inr ⟨_, _, h2⟩,
    Ex.swap_injective _ _, by decide, by rw [h4]; rfl, by rw [h5]; rfl, h9, h10, by decide⟩

theorem Rename.fresh (hi : DamageBuilder.init stats lib = .ok db) (D : String → Prop) :
    Rename.DbRel D f db db := by
  unfold DamageBuilder.init at hi
  obtain ⟨p, -, hi⟩ := Py.bind_eq_ok.1 hi
  obtain ⟨C, -, hi⟩ := Py.bind_eq_ok.1 hi
  obtain ⟨b, -, hi⟩ := Py.bind_eq_ok.1 hi
  rw [← Except.ok.inj hi]
  exact ⟨⟨rfl, rfl, fun _ => rfl, fun t n hn => by cases hn⟩, rfl, rfl⟩

/-- C105, partial.  Missing: timelines in which a buff ends a debuff, if the default target gets another name;
and events that share an id.

Take any timeline without repeated event ids, and give its targets other names, different names to different
targets.  Suppose that the default target keeps its name, or that no buff of the timeline ends a debuff of the
timeline.  Then a new builder computes exactly the same instances, in the same order, on the targets with the
other names: the same skills, conditions, times, ids, buffs and debuffs - or it raises the same exception. -/
theorem C105_names_partial (hi : DamageBuilder.init stats lib = .ok db) (ht : Timeline events)
    (hids : (events.q.map (·.eventId)).Nodup) (hf : Function.Injective f)
    (hd : f SimConsts.DEFAULT_TARGET = SimConsts.DEFAULT_TARGET ∨ BuffsEndNoDebuff events) :
    (db.getDamageInstances (renameTimeline f events)).map Prod.fst =
      (db.getDamageInstances events).map (fun r => r.1.map (renameInstance f)) := by
  have he : ∀ e ∈ events.q, Rename.SkillOk
      (fun n => ∃ e ∈ events.q, e.skill.name = n ∧ ∃ m s, e.skill.getDebuffSpec m = .ok (some s)) f
      e.skill.toSkillCore := by
    intro e he
    refine ⟨fun m s hs => ⟨e, he, rfl, m, s, hs⟩, hd.imp id fun hd => ?_⟩
    rintro m s hs n hn ⟨e', he', rfl, m', s', hs'⟩
    exact hd e he m s hs e' he' hn m' s' hs'
  have key := Rename.getDamageInstances_rename hf (Rename.fresh (f := f) hi _) (timeline_ok ht) he hids
  match hx : db.getDamageInstances events, hy : db.getDamageInstances (renameTimeline f events) with
  | .ok a, .ok b =>
    rw [hx, hy] at key
    show Except.ok b.1 = Except.ok _
    rw [show b.1 = _ from key]
  | .error e, .error e' =>
    rw [hx, hy] at key
    show Except.error e' = Except.error e
    rw [show e = e' from key]
  | .ok a, .error e => rw [hx, hy] at key; exact key.elim
  | .error e, .ok a => rw [hx, hy] at key; exact key.elim

/-- A debuff on one target, a buff, and hits on two: with other names the same hits. -/
example : ∃ stats lib db events f xs, DamageBuilder.init stats lib = .ok db ∧ Timeline events ∧
    (events.q.map (·.eventId)).Nodup ∧ Function.Injective f ∧
    f SimConsts.DEFAULT_TARGET = "Boss" ∧ BuffsEndNoDebuff events ∧
    (db.getDamageInstances events).map Prod.fst = .ok xs ∧
    xs.map (fun x => (x.time, x.target, x.debuffs.damageMult)) =
      [(2500, "Default Target", 21 / 20), (2635, "Add", 1)] ∧
    (xs.map (renameInstance f)).map (fun x => (x.time, x.target, x.debuffs.damageMult)) =
      [(2500, "Boss", 21 / 20), (2635, "Add", 1)] := by
  have h : Ex.okAnd (runQueue {} [Ex.ev 0 0 Ex.mark, Ex.ev 1000 1000 Ex.cheer,
      Ex.ev 2000 2500 Ex.hit ["Default Target", "Add"]]) (fun p =>
        Ex.okAnd (Ex.fresh.getDamageInstances p.2) (fun r =>
          decide ((p.2.q.map (·.eventId)).Nodup ∧ p.2.q.map (fun e => e.skill) = [Ex.mark, Ex.cheer, Ex.hit] ∧
            r.1.map (fun x => (x.time, x.target, x.debuffs.damageMult)) =
      [(2500, "Default Target", 21 / 20), (2635, "Add", 1)] ∧
    (r.1.map (renameInstance (Ex.swap "Default Target" "Boss"))).map (fun x => (x.time, x.target, x.debuffs.damageMult)) =
      [(2500, "Boss", 21 / 20), (2635, "Add", 1)]))) = true := by
    decide +kernel
  obtain ⟨⟨o1, events⟩, h1, h⟩ := Ex.ok_of h
  obtain ⟨⟨xs, dbx⟩, h2, h⟩ := Ex.ok_of h
  obtain ⟨h3, h4, h5, h6⟩ := of_decide_eq_true h
  refine ⟨Ex.stats, Ex.lib, Ex.fresh, events, Ex.swap "Default Target" "Boss", xs, by decide +kernel,
    .inr ⟨_, _, h1⟩, h3, Ex.swap_injective _ _, by decide, ?_, by rw [h2]; rfl, h5, h6⟩
  intro e he m s hs e' he' hn
  have key : e.skill ∈ [Ex.mark, Ex.cheer, Ex.hit] := h4 ▸ List.mem_map_of_mem (f := fun e : Event => e.skill) he
  have : s.expiresStatusEffects = [] := by
    simp only [List.mem_cons, List.not_mem_nil, or_false] at key
    rcases key with key | key | key <;> rw [key] at hs
    · cases hs
    · cases hs
      rfl
    · cases hs
  rw [this] at hn
  cases hn

/-! ## Rotations -/

theorem rotation_ids {fuel : ℕ} {rb rb' : RotationBuilder} (h : rb.getSkillTiming fuel = .ok rb') :
    (rb'.events.q.map (·.eventId)).Nodup := by
  obtain ⟨r⟩ := RotationBuilder.run_of_ok h
  have hfin := r.finished
  unfold RotationBuilder.finish at hfin
  obtain ⟨r1, h1, hfin⟩ := Py.bind_eq_ok.1 hfin
  obtain ⟨r2, h2, hfin⟩ := Py.bind_eq_ok.1 hfin
  unfold RotationBuilder.removeDamageDuringDowntime at h2
  obtain ⟨evs, h3, h2⟩ := Py.bind_eq_ok.1 h2
  rw [← Except.ok.inj hfin, ← Except.ok.inj h2]
  show (evs.q.map (·.eventId)).Nodup
  have hg : r1.events.Good := by
    have hg := r.good
    unfold RotationBuilder.shiftIfNeeded at h1
    split at h1
    · rcases RotationBuilder.shiftTimelines_spec hg h1 with ⟨-, rfl⟩ | ⟨first, out, -, -, -, -, rfl⟩
      · exact hg
      · exact Events.good_push Events.good_empty _
    · rw [← Except.ok.inj h1]
      exact hg
  obtain ⟨out, -, -, -, g4⟩ := RotationBuilder.removeLoop_spec r1 r1.events.q.length r1.events {} hg.1 le_rfl
  rw [g4] at h3
  obtain ⟨as, h5, h3⟩ := Py.bind_eq_ok.1 h3
  rw [← Except.ok.inj h3]
  obtain ⟨-, es, k1, k2⟩ := pushes_empty as
  have hn : ∀ a ∈ as, a.eventId = none := by
    intro a ha
    obtain ⟨e1, he1, x, hx, hax⟩ := (RotationBuilder.mem_flatM h5).1 ha
    obtain ⟨ts, -, -, rfl⟩ := RotationBuilder.mem_keepOne hx hax
    rfl
  refine (k2.map _).nodup_iff.2 ?_
  rw [eventsOf_ids k1 hn]
  exact List.nodup_range'

/-- C105 for the timeline of any rotation: its event ids are different. -/
theorem C105_rotation_partial {fuel : ℕ} {rb rb' : RotationBuilder} (hr : rb.getSkillTiming fuel = .ok rb')
    (hi : DamageBuilder.init stats lib = .ok db) (hf : Function.Injective f)
    (hd : f SimConsts.DEFAULT_TARGET = SimConsts.DEFAULT_TARGET ∨ BuffsEndNoDebuff rb'.events) :
    (db.getDamageInstances (renameTimeline f rb'.events)).map Prod.fst =
      (db.getDamageInstances rb'.events).map (fun r => r.1.map (renameInstance f)) :=
  C105_names_partial hi (.inl ⟨fuel, rb', rb, hr, rfl⟩) (rotation_ids hr) hf hd

/-- A rotation with a poison and a hit on two targets. -/
example : ∃ rb rb', [BuilderOp.add 0 "Venom" none none (some "A, B"), BuilderOp.add 2 "Hit" none none (some "B, A")].foldlM
      BuilderOp.run (Ex.start none false false (some 0) (.tuple [])) = .ok rb ∧
    rb.getSkillTiming 20 = .ok rb' ∧ DamageBuilder.init Ex.stats Ex.lib = .ok Ex.fresh ∧
    Function.Injective (Ex.swap "A" "B") ∧ Ex.swap "A" "B" SimConsts.DEFAULT_TARGET = SimConsts.DEFAULT_TARGET ∧
    3 ≤ rb'.events.q.length := by
  have h : Ex.okAnd ([BuilderOp.add 0 "Venom" none none (some "A, B"), BuilderOp.add 2 "Hit" none none (some "B, A")].foldlM
      BuilderOp.run (Ex.start none false false (some 0) (.tuple []))) (fun rb =>
        Ex.okAnd (rb.getSkillTiming 20) (fun a => decide (3 ≤ a.events.q.length))) = true := by
    decide +kernel
  obtain ⟨rb, h1, h⟩ := Ex.ok_of h
  obtain ⟨a, h2, h⟩ := Ex.ok_of h
  exact ⟨rb, a, h1, h2, by decide +kernel, Ex.swap_injective _ _, by decide, of_decide_eq_true h⟩

/-! ## The simulation -/

theorem Rename.fill (stats : Stats) (l : List DamageInstance) :
    DamageSimulator.fill stats (l.map (renameInstance f)) = DamageSimulator.fill stats l := by
  unfold DamageSimulator.fill
  rw [List.foldlM_map]
  rfl

/-- C105, the simulation: with other names for the targets of the instances, everything but these names is the
same - the samples, the expected damage, the variance, the times and the rates - or the same exception is
raised. -/
theorem C105_simulated {l : List DamageInstance} {n : ℕ} {wr ws : ℕ → ℕ → Draw} :
    DamageSimulator.init stats (l.map (renameInstance f)) n wr ws =
      (DamageSimulator.init stats l n wr ws).map (renameSimulation f) := by
  unfold DamageSimulator.init
  simp only
  have hs : sortBy (fun x : DamageInstance => x.time) (l.map (renameInstance f)) =
      (sortBy (fun x : DamageInstance => x.time) l).map (renameInstance f) := by
    rw [sortBy_map]
    rfl
  rw [hs, Rename.fill]
  generalize sortBy (fun x : DamageInstance => x.time) l = l'
  have e3 : DamageSimulator.fightTime (l'.map (renameInstance f)) = DamageSimulator.fightTime l' := by
    unfold DamageSimulator.fightTime
    rw [List.head?_map, List.getLast?_map]
    cases l'.head? with
    | none => rfl
    | some a =>
      cases l'.getLast? with
      | none => rfl
      | some b => rfl
  rw [e3, List.map_map, List.map_map]
  cases DamageSimulator.fill stats l' with
  | error e => rfl
  | ok dt =>
    simp only [Py.ok_bind]
    cases dt.finalize.ranges wr with
    | error e => rfl
    | ok rs =>
      simp only [Py.ok_bind]
      cases DamageSimulator.expectedAndVariance rs with
      | error e => rfl
      | ok mv =>
        simp only [Py.ok_bind]
        cases dt.finalize.computeDamage n ws with
        | error e => rfl
        | ok m =>
          simp only [Py.ok_bind, Py.pure_eq, Except.map, renameSimulation, List.map_map]
          rfl

/-- The simulation of two instances. -/
example : ∃ s, DamageSimulator.init Ex.stats Ex.insts 2 (fun _ _ => Ex.half) (fun i j => ⟨i / 2, j / 2, 1 / 3⟩) =
      .ok s ∧ s.getRawDamage = [26514, 16490] ∧ s.targets ≠ (renameSimulation (fun x => x ++ "!") s).targets := by
  have h : Ex.okAnd (DamageSimulator.init Ex.stats Ex.insts 2 (fun _ _ => Ex.half)
      (fun i j => ⟨i / 2, j / 2, 1 / 3⟩)) (fun s =>
        decide (s.getRawDamage = [26514, 16490] ∧ s.targets ≠ (renameSimulation (fun x => x ++ "!") s).targets)) = true := by
    decide +kernel
  obtain ⟨s, h1, h2⟩ := Ex.ok_of h
  exact ⟨s, h1, of_decide_eq_true h2⟩

end Ama
