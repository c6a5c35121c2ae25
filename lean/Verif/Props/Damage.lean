import Verif.Lemmas.DamageRuns
import Verif.Examples.Damage
import Verif.Lemmas.DamageSafe

/-!
# Properties of the damage builder: hits, times, snapshots, order, termination (C36 - C40)
-/

namespace Ama

open Spec DamageBuilder

variable {db db' : DamageBuilder} {events : Events} {xs : List DamageInstance}

/-! ## C36: every damaging hit is accounted for exactly once -/

/-- C36.  To every event and every one of its targets belongs one candidate with the id of the event,
its skill and that target; the result consists of exactly those candidates that deal damage under the
conditions they carry. -/
theorem C36_hits (ht : Timeline events) (h : db.getDamageInstances events = .ok (xs, db')) :
    ∃ candidates, List.Forall₂ Hit.Yields (hitsOf events.q) candidates ∧
      (∀ x ∈ candidates, ∃ sp, x.skill.getDamageSpec x.modifier = .ok sp) ∧
      xs.Perm (candidates.filter deals) := by
  obtain ⟨tr, s, ⟨h1, h2⟩, rfl, -⟩ := getDamageInstances_ok h
  obtain ⟨ys, ⟨zs, h3, h4⟩, h5⟩ := reaches_spec h1 (timeline_ok ht) h2
  refine ⟨zs, h3.imp fun _ _ hx => hx.1, ?_, ?_⟩
  · intro x hx
    obtain ⟨i, hi, rfl⟩ := List.getElem_of_mem hx
    have hl := h3.length_eq
    exact ((List.forall₂_iff_get.1 h3).2 i (by omega) hi).2.1
  · refine (sortBy_perm _ _).trans ((by simpa using h5 : s.q.Perm (ys.filter deals)).trans ?_)
    exact (h4.filter _).symm

/-- C36, for a timeline all of whose skills deal damage under all conditions: exactly one instance per
event and target. -/
theorem C36_all_damage (ht : Timeline events) (h : db.getDamageInstances events = .ok (xs, db'))
    (hd : ∀ e ∈ events.q, ∀ m, ∃ sp, e.skill.getDamageSpec m = .ok (some sp)) :
    Changed Hit.Yields (hitsOf events.q) xs := by
  obtain ⟨cs, h1, -, h3⟩ := C36_hits ht h
  refine ⟨cs, h1, ?_⟩
  have : cs.filter deals = cs := by
    rw [List.filter_eq_self]
    intro x hx
    obtain ⟨i, hi, rfl⟩ := List.getElem_of_mem hx
    have hl := h1.length_eq
    have hy := (List.forall₂_iff_get.1 h1).2 i (by omega) hi
    have hm : (hitsOf events.q)[i].event ∈ events.q := by
      have := List.getElem_mem (l := hitsOf events.q) (n := i) (by omega)
      unfold hitsOf at this
      obtain ⟨e, he, h4⟩ := List.mem_flatMap.1 this
      obtain ⟨ti, -, h5⟩ := List.mem_map.1 h4
      unfold hitsOf
      rw [← h5]
      exact he
    obtain ⟨sp, hsp⟩ := hd _ hm cs[i].modifier
    have hs : cs[i].skill = (hitsOf events.q)[i].event.skill := hy.2.1
    unfold deals
    rw [hs, hsp]
  rw [this] at h3
  exact h3.symm

/-- C36, no damage out of nothing: without a damaging variant there is no instance. -/
theorem C36_no_damage (ht : Timeline events) (h : db.getDamageInstances events = .ok (xs, db'))
    (hd : ∀ e ∈ events.q, ∀ m sp, e.skill.getDamageSpec m ≠ .ok (some sp)) : xs = [] := by
  obtain ⟨cs, h1, -, h3⟩ := C36_hits ht h
  have : cs.filter deals = [] := by
    rw [List.filter_eq_nil_iff]
    intro x hx
    obtain ⟨y, hy, hr⟩ := changed_mem_right ⟨cs, h1, .refl _⟩ hx
    unfold hitsOf at hy
    obtain ⟨e, he, h4⟩ := List.mem_flatMap.1 hy
    obtain ⟨ti, -, rfl⟩ := List.mem_map.1 h4
    have hs : x.skill = e.skill := hr.2.1
    unfold deals
    rw [hs]
    split
    · next sp hsp => exact absurd hsp (hd e he _ sp)
    · simp
  rw [this] at h3
  exact h3.eq_nil

/-- A blast on two targets, a buff without damage, and a hit: three instances. -/
example : ∃ events xs db' tr s, Timeline events ∧ Ex.fresh.getDamageInstances events = .ok (xs, db') ∧
    Processes Ex.fresh events tr s ∧ (hitsOf events.q).length = 4 ∧
      xs.map (fun x => (x.skill.name, x.eventId, x.target)) =
        [("Blast", 0, "A"), ("Blast", 0, "B"), ("Hit", 2, SimConsts.DEFAULT_TARGET)] :=
  Ex.damage_of [Ex.ev 0 200 Ex.blast ["A", "B"], Ex.ev 100 100 Ex.cheer, Ex.ev 500 1000 Ex.hit] 6
    (fun events xs _ => (hitsOf events.q).length = 4 ∧
      xs.map (fun x => (x.skill.name, x.eventId, x.target)) =
        [("Blast", 0, "A"), ("Blast", 0, "B"), ("Hit", 2, SimConsts.DEFAULT_TARGET)])
    (h := by decide +kernel)

/-! ## C37: times -/

/-- C37: the instances are in order of time, and each lands when its hit does: at the time of
application of its event, plus 135 ms for each preceding target. -/
theorem C37_times (ht : Timeline events) (h : db.getDamageInstances events = .ok (xs, db')) :
    xs.Pairwise (fun x y => x.time ≤ y.time) ∧
    ∀ x ∈ xs, ∃ hit ∈ hitsOf events.q, hit.event.eventId = x.eventId ∧ hit.target = x.target ∧
      hit.event.skill = x.skill ∧ x.time = hit.time := by
  constructor
  · obtain ⟨tr, s, -, rfl, -⟩ := getDamageInstances_ok h
    exact sortBy_sorted _ _
  · obtain ⟨cs, h1, -, h3⟩ := C36_hits ht h
    intro x hx
    have hx := (List.mem_filter.1 (h3.mem_iff.1 hx)).1
    obtain ⟨y, hy, hr⟩ := changed_mem_right ⟨cs, h1, .refl _⟩ hx
    exact ⟨y, hy, hr.2.2.1.symm, hr.2.2.2.1.symm, hr.2.1.symm, hr.1⟩

/-- The hit comes between the two targets of the blast. -/
example : ∃ events xs db' tr s, Timeline events ∧ Ex.fresh.getDamageInstances events = .ok (xs, db') ∧
    Processes Ex.fresh events tr s ∧
      xs.map (fun x => (x.skill.name, x.target, x.time)) =
        [("Blast", "A", 200), ("Hit", SimConsts.DEFAULT_TARGET, 300), ("Blast", "B", 335)] :=
  Ex.damage_of [Ex.ev 0 200 Ex.blast ["A", "B"], Ex.ev 100 300 Ex.hit] 5
    (fun _ xs _ => xs.map (fun x => (x.skill.name, x.target, x.time)) =
        [("Blast", "A", 200), ("Hit", SimConsts.DEFAULT_TARGET, 300), ("Blast", "B", 335)])
    (h := by decide +kernel)

/-! ## C38: snapshots -/

/-- C38.  In the execution that yields the result, the buffs of each instance are those that were in
effect when its event was first processed (at its snapshot) if it snapshots buffs, whatever was
processed afterwards; and those in effect at the application if it does not.  The same holds for the
debuffs of its target (if no target is named twice). -/
theorem C38_snapshots (ht : Timeline events) (h : db.getDamageInstances events = .ok (xs, db')) :
    ∃ tr s candidates, Processes db events tr s ∧
      List.Forall₂ (fun hit x => hit.Yields x ∧ hit.Buffs tr x ∧
        (hit.event.targets.Nodup → hit.Debuffs tr x)) (hitsOf events.q) candidates ∧
      xs.Perm (candidates.filter deals) := by
  obtain ⟨tr, s, ⟨h1, h2⟩, rfl, -⟩ := getDamageInstances_ok h
  obtain ⟨ys, ⟨zs, h3, h4⟩, h5⟩ := reaches_spec h1 (timeline_ok ht) h2
  refine ⟨tr, s, zs, ⟨h1, h2⟩, h3.imp fun _ _ hx => ⟨hx.1, hx.2.2.1, hx.2.2.2⟩, ?_⟩
  refine (sortBy_perm _ _).trans ((by simpa using h5 : s.q.Perm (ys.filter deals)).trans ?_)
  exact (h4.filter _).symm

/-- Two hits with a buff and a debuff between snapshot and application: the one that snapshots has
neither, the other one has both. -/
example : ∃ events xs db' tr s, Timeline events ∧ Ex.fresh.getDamageInstances events = .ok (xs, db') ∧
    Processes Ex.fresh events tr s ∧
      xs.map (fun x => (x.skill.name, x.time, x.buffs.damageMult, x.debuffs.damageMult)) =
        [("Hit", 500, 1, 1), ("Spell", 600, 11 / 10, 21 / 20)] :=
  Ex.damage_of [Ex.ev 0 500 Ex.hit, Ex.ev 0 600 Ex.spell (buffs := false) (debuffs := false),
      Ex.ev 100 100 Ex.cheer, Ex.ev 200 200 Ex.mark] 6
    (fun _ xs _ => xs.map (fun x => (x.skill.name, x.time, x.buffs.damageMult, x.debuffs.damageMult)) =
        [("Hit", 500, 1, 1), ("Spell", 600, 11 / 10, 21 / 20)])
    (h := by decide +kernel)

/-! ## C39: order of processing -/

/-- C39 (`_partial`: missing are events with a separate snapshot and several targets, where the claim
is false, see `C39_multi_target_refuted`; events with times that are not whole milliseconds; and priorities half a
millisecond or more away from the time).  Events are processed in order of their times. -/
theorem C39_chronological_partial (ht : Timeline events) (hr : ∀ e ∈ events.q, Regular e)
    {tr : List (DamageState × Event)} {s : DamageState}
    (h : Reaches { db := db, events := events } tr s) :
    tr.Pairwise (fun p p' => p.2.primary ≤ p'.2.primary) :=
  (reaches_sorted h (timeline_ok ht) hr).1

/-- A timeline of regular events with overlapping snapshots and applications. -/
example : ∃ events xs db' tr s, Timeline events ∧ Ex.fresh.getDamageInstances events = .ok (xs, db') ∧
    Processes Ex.fresh events tr s ∧ tr.map (fun p => (p.2.skill.name, p.2.primary)) =
      [("Hit", 0), ("Cheer", 100), ("Venom", 300), ("Blast", 400), ("Hit", 500), ("Venom", 1000)] :=
  Ex.damage_of [Ex.ev 300 1000 Ex.venom, Ex.ev 0 500 Ex.hit, Ex.ev 100 100 Ex.cheer,
      Ex.ev 400 400 Ex.blast ["A", "B"]] 6
    (fun _ _ tr => tr.map (fun p => (p.2.skill.name, p.2.primary)) =
      [("Hit", 0), ("Cheer", 100), ("Venom", 300), ("Blast", 400), ("Hit", 500), ("Venom", 1000)])
    (h := by decide +kernel)

/-- C39 is false for several targets: the hit on the second target at 1135 ms is processed before the
buff that is applied at 1050 ms, and does not get it. -/
theorem C39_multi_target_refuted :
    ∃ events xs db' tr s, Timeline events ∧ Ex.fresh.getDamageInstances events = .ok (xs, db') ∧
      Processes Ex.fresh events tr s ∧
      tr.map (fun p => (p.2.skill.name, p.2.primary)) =
        [("Blast", 0), ("Blast", 1000), ("Blast", 1135), ("Cheer", 1050)] ∧
      xs.map (fun x => (x.time, x.buffs.damageMult)) = [(1000, 1), (1135, 1)] :=
  Ex.damage_of [Ex.ev 0 1000 Ex.blast ["A", "B"] (buffs := false), Ex.ev 1050 1050 Ex.cheer] 4
    (fun _ xs tr => tr.map (fun p => (p.2.skill.name, p.2.primary)) =
        [("Blast", 0), ("Blast", 1000), ("Blast", 1135), ("Cheer", 1050)] ∧
      xs.map (fun x => (x.time, x.buffs.damageMult)) = [(1000, 1), (1135, 1)])
    (h := by decide +kernel)

/-! ## C40: termination, exceptions -/

/-- C40 (first half): on every timeline the loop ends, either normally after exactly as many
iterations as there are events and applications of split events, or because processing one of the
events raises. -/
theorem C40_terminates (ht : Timeline events) :
    (∃ xs db' tr s, db.getDamageInstances events = .ok (xs, db') ∧ Processes db events tr s ∧
      tr.length = (events.q.map rounds).sum) ∨
    ∃ tr s e evs err, Reaches { db := db, events := events } tr s ∧
      s.events.getNext = .ok (e, evs) ∧ processEvent { s with events := evs } e = .error err ∧
      tr.length < (events.q.map rounds).sum ∧ db.getDamageInstances events = .error err := by
  have ho := timeline_ok ht
  have hw : (events.q.map work).sum = (events.q.map rounds).sum := by
    congr 1
    exact List.map_congr_left fun e _ => work_eq e
  rcases loop_total (n := (events.q.map work).sum) (s := { db := db, events := events }) ho hw.ge with
    ⟨s, h⟩ | ⟨tr, s, e, evs, x, h1, h2, h3, h4⟩
  · left
    obtain ⟨tr, h1, h2⟩ := loop_ok h
    refine ⟨sortBy (·.time) s.q, s.db, tr, s, by unfold getDamageInstances; rw [h]; rfl, ⟨h1, h2⟩, ?_⟩
    have := reaches_rounds h1 ho
    rw [h2] at this
    simpa using this
  · right
    refine ⟨tr, s, e, evs, x, h1, h2, h3, ?_, by unfold getDamageInstances; rw [h4]; rfl⟩
    have h5 := reaches_rounds h1 ho
    obtain ⟨-, h6, -⟩ := Events.getNext_spec (reaches_ok h1 ho) h2
    rw [sum_rounds_perm h6] at h5
    have := rounds_pos e
    simp only [List.map_cons, List.sum_cons] at h5
    omega

/-- C40 (second half), in part: no exception is raised if all variants that the given conditions allow can be looked up, no skill can get
two different effects that force critical or direct hits, only configured gauges are changed, no bonus
percentage is forced by hand, and no two damaging hits with the same skill name fall at the same time.  Missing:
damaging hits that coincide (where the claim is false, see below), and two effects that force critical or direct
hits of the same skill (which raise by design). -/
theorem C40_no_raise_partial {stats : Stats} {lib : SkillLibrary}
    {settings : Dict String JobResourceSettings} (hi : DamageBuilder.init stats lib = .ok db)
    (hg : lib.getAllResourceSettings stats.jobClass = .ok settings) (ht : Timeline events)
    (hh : ∀ e ∈ events.q, Harmless settings.keys e.modifier e.skill.toSkillCore ∧ e.modifier.bonusPercent = none)
    (ha : Agree (fun k => ∃ e ∈ events.q, e.skill.toSkillCore = k))
    (hd : HitsApart events.q) :
    ∃ xs db', db.getDamageInstances events = .ok (xs, db') := by
  have hs := safe_start hi hg ht hh ha hd
  rcases C40_terminates (db := db) ht with ⟨xs, db', -, -, h, -⟩ | ⟨tr, s, e, evs, err, h1, h2, h3, -⟩
  · exact ⟨xs, db', h⟩
  · obtain ⟨s', h4, -⟩ := safe_next (reaches_safe h1 hs) h2
    rw [h3] at h4
    cases h4

/-- The hypotheses hold for a timeline with a buff, two uses at the same time of an ability that forces
critical hits, and two hits, one on two targets. -/
example : ∃ events, Timeline events ∧
    (∀ e ∈ events.q, Harmless (Dict.keys ([] : Dict String JobResourceSettings)) e.modifier e.skill.toSkillCore ∧
      e.modifier.bonusPercent = none) ∧
    Agree (fun k => ∃ e ∈ events.q, e.skill.toSkillCore = k) ∧
    HitsApart events.q ∧
    (hitsOf events.q).length = 6 ∧
    ∃ xs db', Ex.fresh.getDamageInstances events = .ok (xs, db') ∧
      xs.map (·.buffs.guaranteedCrit) = [.default, .default, .forceYes] := by
  have h : Ex.okAnd (runQueue {} [Ex.ev 0 1000 Ex.hit ["a", "b"], Ex.ev 100 100 Ex.cheer,
      Ex.ev 120 120 Ex.steel, Ex.ev 120 120 Ex.steel, Ex.ev 200 2000 Ex.hit])
      (fun p => decide ((∀ e ∈ p.2.q, e.skill = Ex.hit ∨ e.skill = Ex.cheer ∨ e.skill = Ex.steel) ∧
        (∀ e ∈ p.2.q, e.modifier.bonusPercent = none) ∧
        (hitsOf p.2.q).Pairwise (fun h h' => h.event.skill = Ex.hit → h'.event.skill = Ex.hit →
          h.time ≠ h'.time) ∧
        (hitsOf p.2.q).length = 6) && Ex.okAnd (Ex.fresh.getDamageInstances p.2) (fun r =>
          decide (r.1.map (·.buffs.guaranteedCrit) = [.default, .default, .forceYes]))) = true := by
    decide +kernel
  obtain ⟨⟨out, events⟩, h1, h2⟩ := Ex.ok_of h
  rw [Bool.and_eq_true] at h2
  obtain ⟨h2, h7⟩ := h2
  obtain ⟨h3, h4, h5, h6⟩ := of_decide_eq_true h2
  obtain ⟨⟨xs, db'⟩, h8, h9⟩ := Ex.ok_of h7
  refine ⟨events, .inr ⟨_, out, h1⟩, fun e he => ⟨?_, h4 e he⟩, ⟨?_, ?_⟩, ?_, h6, xs, db', h8,
    of_decide_eq_true h9⟩
  · rcases h3 e he with h | h | h <;> rw [h] <;>
      exact ⟨fun m _ => ⟨_, rfl⟩, fun m _ => ⟨_, rfl⟩, fun m _ => ⟨_, rfl⟩,
        fun m _ => ⟨_, rfl, fun s hs => by cases hs⟩, fun m _ => ⟨_, rfl⟩⟩
  · rintro a b m m' s s' k ⟨e, he, rfl⟩ ⟨e', he', rfl⟩ hs hs' hf hf' - -
    rcases h3 e he with h | h | h <;> rw [h] at hs ⊢ <;> cases hs
    · rcases hf with hf | hf <;> exact absurd rfl hf
    · rcases h3 e' he' with h' | h' | h' <;> rw [h'] at hs' ⊢ <;> cases hs'
      rcases hf' with hf' | hf' <;> exact absurd rfl hf'
  · rintro a b m m' s s' k ⟨e, he, rfl⟩ - hs
    rcases h3 e he with h | h | h <;> rw [h] at hs <;> cases hs
  · have hx : ∀ x ∈ hitsOf events.q, Harms x.event.skill.toSkillCore → x.event.skill = Ex.hit := by
      rintro x hx ⟨m, d, hd⟩
      rcases h3 _ (mem_of_hit hx) with h | h | h
      · exact h
      · rw [h] at hd
        cases hd
      · rw [h] at hd
        cases hd
    exact h5.imp_of_mem fun ha hb hab pa pb ht => (hab (hx _ ha pa) (hx _ hb pb) ht).elim

/-- The second half of C40 is false: two uses of the same skill that land at the same time, one
snapshotted before and one after a buff, raise a `TypeError` when their instances are compared. -/
theorem C40_type_error_refuted :
    ∃ events, Timeline events ∧ (∀ e ∈ events.q, ∀ m, ∃ r, e.skill.getDamageSpec m = .ok r) ∧
      Ex.fresh.getDamageInstances events = .error .typeError := by
  have h : Ex.okAnd (runQueue {} [Ex.ev 0 1000 Ex.hit, Ex.ev 100 100 Ex.cheer, Ex.ev 200 1000 Ex.hit])
      (fun p => decide (p.2.q.map (·.skill) = [Ex.hit, Ex.cheer, Ex.hit] ∧
        Ex.fresh.getDamageInstances p.2 = .error .typeError)) = true := by decide +kernel
  obtain ⟨⟨out, events⟩, h1, h2⟩ := Ex.ok_of h
  obtain ⟨h3, h4⟩ := of_decide_eq_true h2
  refine ⟨events, .inr ⟨_, out, h1⟩, ?_, h4⟩
  intro e he m
  have : e.skill ∈ [Ex.hit, Ex.cheer, Ex.hit] := by
    rw [← h3]
    exact List.mem_map_of_mem he
  simp only [List.mem_cons, List.not_mem_nil, or_false] at this
  rcases this with h | h | h <;> rw [h] <;> exact ⟨_, rfl⟩

end Ama
