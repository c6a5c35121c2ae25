import Verif.Lemmas.Shift
import Verif.Model.DamageSimulator
import Verif.Examples.Damage
import Verif.Lemmas.GameData.Lasting
import Verif.Props.Pipeline
import Verif.Props.Simulation

/-!
# A timeline at another time (C95)
-/

namespace Ama

open Spec DamageBuilder

/-- A skill that fills a gauge, and one whose damage depends on it. -/
def Ex.ignite : Skill :=
  { name := "Ignite", isGCD := some true
    timingSpec := .single (some { baseCastTime := 0 })
    jobResourceSpec := .single [{ name := "Fire", change := 1, refreshesDurationOfLastGained := true }] }

/-- A library with a gauge that expires after 15 seconds. -/
def Ex.gaugeLib : SkillLibrary :=
  { Ex.lib with jobResources := [("test_job",
      [("Fire", { maxValue := 3, skillAllowlist := ["Hit"], expiryFromLastGain := ((15000 : ℚ) : WithTop ℚ) })])] }

/-- C95 is false: a gauge that was last refilled at time 0 never expires, at any other time it does.
Filling a gauge that lasts 15 seconds and hitting 20 seconds later gives a hit with the gauge if the
timeline starts at 0, and without it if the same timeline starts one second later. -/
theorem C95_shift_refuted :
    ∃ (stats : Stats) (lib : SkillLibrary) (db : DamageBuilder) (events : Events) (δ : ℚ)
      (x y : DamageInstance),
      DamageBuilder.init stats lib = .ok db ∧ Timeline events ∧ Timeline (laterTimeline δ events) ∧
      Micro δ ∧ (∀ e ∈ events.q, Micro e.primary ∧ ∀ s ∈ e.secondary, Micro s) ∧
      (db.getDamageInstances events).map Prod.fst = .ok [x] ∧
      (db.getDamageInstances (laterTimeline δ events)).map Prod.fst = .ok [y] ∧
      "1 Fire" ∈ x.modifier.withCondition ∧ "1 Fire" ∉ y.modifier.withCondition := by
  have h : Ex.okAnd (runQueue {} [Ex.ev 0 0 Ex.ignite, Ex.ev 20000 20500 Ex.hit]) (fun p1 =>
      Ex.okAnd (runQueue {} [Ex.ev 1000 1000 Ex.ignite, Ex.ev 21000 21500 Ex.hit]) (fun p2 =>
        Ex.okAnd (DamageBuilder.init Ex.stats Ex.gaugeLib) (fun db =>
          Ex.okAnd (db.getDamageInstances p1.2) (fun r1 =>
            Ex.okAnd (db.getDamageInstances p2.2) (fun r2 =>
              decide (p2.2.q = (laterTimeline 1000 p1.2).q ∧ p2.2.eventId = p1.2.eventId ∧
                p1.2.q.map (fun e => (e.primary, e.secondary)) = [(0, none), (20000, some 20500)] ∧
                r1.1.map (fun x => decide ("1 Fire" ∈ x.modifier.withCondition)) = [true] ∧
                r2.1.map (fun x => decide ("1 Fire" ∈ x.modifier.withCondition)) = [false]))))) ) = true := by
    decide +kernel
  obtain ⟨⟨o1, events1⟩, h1, h⟩ := Ex.ok_of h
  obtain ⟨⟨o2, events2⟩, h2, h⟩ := Ex.ok_of h
  obtain ⟨db, h3, h⟩ := Ex.ok_of h
  obtain ⟨⟨xs, dbx⟩, h4, h⟩ := Ex.ok_of h
  obtain ⟨⟨ys, dby⟩, h5, h⟩ := Ex.ok_of h
  obtain ⟨h6, h7, h8, h9, h10⟩ := of_decide_eq_true h
  obtain ⟨x, rfl, hx⟩ := List.map_eq_singleton_iff.1 h9
  obtain ⟨y, rfl, hy⟩ := List.map_eq_singleton_iff.1 h10
  have he : events2 = laterTimeline 1000 events1 := by
    cases events2
    cases events1
    simp only at h6 h7
    rw [h7, h6]
    rfl
  subst he
  refine ⟨Ex.stats, Ex.gaugeLib, db, events1, 1000, x, y, h3, .inr ⟨_, _, h1⟩, .inr ⟨_, _, h2⟩,
    ⟨1000000, by norm_num⟩, ?_, by rw [h4]; rfl, by rw [h5]; rfl, of_decide_eq_true hx,
    of_decide_eq_false hy⟩
  intro e he
  have := List.mem_map_of_mem (f := fun e : Event => (e.primary, e.secondary)) he
  rw [show events1.q.map (fun e => (e.primary, e.secondary)) = _ from h8] at this
  simp only [List.mem_cons, Prod.mk.injEq, List.not_mem_nil, or_false] at this
  rcases this with ⟨a, b⟩ | ⟨a, b⟩
  · rw [a, b]
    exact ⟨⟨0, by norm_num⟩, by simp⟩
  · rw [a, b]
    refine ⟨⟨20000000, by norm_num⟩, ?_⟩
    intro s hs
    rw [← Option.some.inj hs]
    exact ⟨20500000, by norm_num⟩

theorem prio_micro {t : ℚ} {n : ℤ} (h : 1000 * t = n) : Utils.transformTimeToPrio t = n := by
  unfold Utils.transformTimeToPrio pyInt
  rw [h]
  split <;> simp

theorem prioOk_of {δ t : ℚ} (hd : Micro δ) (ht : Micro t ∨ 0 ≤ t ∧ 0 ≤ t + δ) : Shift.PrioOk δ t := by
  obtain ⟨k, hk⟩ := hd
  unfold Shift.PrioOk
  rw [prio_micro hk]
  rcases ht with ⟨n, hn⟩ | ⟨h1, h2⟩
  · rw [prio_micro hn, prio_micro (n := n + k) (by push_cast; rw [← hn, ← hk]; ring)]
  · unfold Utils.transformTimeToPrio pyInt
    rw [if_pos (by linarith), if_pos (by linarith), mul_add, hk, Int.floor_add_intCast]

/-- C95, partial.  Missing: timelines in which a gauge that expires is changed at time 0 (before or after
moving), and times that are negative and no whole microseconds.

Take any timeline and any whole number `δ` of microseconds, such that the times of the events are whole
microseconds or not negative, before and after moving; and such that the gauges of the job do not expire
or no event happens at time 0, before and after moving.  If the whole timeline happens `δ` later, then a
new builder computes exactly the same instances `δ` later: the same skills, conditions, buffs, debuffs,
ids and targets, in the same order - or it raises the same exception. -/
theorem C95_shift_partial {stats : Stats} {lib : SkillLibrary} {db : DamageBuilder} {events : Events}
    {δ : ℚ} (hi : DamageBuilder.init stats lib = .ok db) (ht : Timeline events) (hd : Micro δ)
    (hm : ∀ e ∈ events.q, ∀ t, t = e.primary ∨ some t = e.secondary →
      Micro t ∨ 0 ≤ t ∧ 0 ≤ t + δ)
    (hg : Lasting lib stats.jobClass ∨ ∀ e ∈ events.q, e.primary ≠ 0 ∧ e.primary + δ ≠ 0) :
    (db.getDamageInstances (laterTimeline δ events)).map Prod.fst =
      (db.getDamageInstances events).map (fun r => r.1.map (laterInstance δ)) := by
  unfold DamageBuilder.init at hi
  obtain ⟨p, -, hi⟩ := Py.bind_eq_ok.1 hi
  obtain ⟨C, hC, hi⟩ := Py.bind_eq_ok.1 hi
  obtain ⟨b, -, hi⟩ := Py.bind_eq_ok.1 hi
  have hdb := Except.ok.inj hi
  have hr : Shift.DbRel δ C db db := by
    rw [← hdb]
    refine ⟨rfl, ⟨?_, .inr ?_, rfl⟩, rfl⟩
    · unfold JobResourceTracker.init Shift.res Shift.vals
      simp only [List.map_map]
      rfl
    · intro kv hkv e he
      obtain ⟨c, -, rfl⟩ := List.mem_map.1 hkv
      simp at he
  have he : ∀ e ∈ events.q, Shift.EvOk δ C e := by
    intro e he
    refine ⟨fun s hs => ⟨prioOk_of hd (hm e he _ (.inl rfl)), prioOk_of hd (hm e he _ (.inr hs.symm))⟩,
      fun _ => ?_⟩
    rcases hg with hg | hg
    · exact .inl (hg C hC)
    · exact .inr (hg e he)
  have key := Shift.getDamageInstances_shift hr (timeline_ok ht) he
  match hx : db.getDamageInstances events, hy : db.getDamageInstances (laterTimeline δ events) with
  | .ok a, .ok b =>
    rw [hx, hy] at key
    show Except.ok b.1 = Except.ok _
    rw [show b.1 = _ from key]
  | .error e, .error e' =>
    rw [hx, hy] at key
    show Except.error e' = Except.error e
    rw [show e = e' from key]
  | .ok a, .error e => rw [hx, hy] at key; exact key.elim
  | .error e, .ok a => rw [hx, hy] at key; exact key.elim

/-- A timeline with a pre-pull buff and hits on two targets. -/
theorem Ex.prepull : ∃ events xs, Timeline events ∧ (∀ e ∈ events.q, ∀ t, t = e.primary ∨ some t = e.secondary →
      Micro t) ∧ (Ex.fresh.getDamageInstances events).map Prod.fst = .ok xs ∧
    xs.map (fun x => (x.time, x.buffs.damageMult)) =
      [(-500, 11 / 10), (-365, 11 / 10), (3000, 11 / 10)] := by
  have h : Ex.okAnd (runQueue {} [Ex.ev (-1500) (-1500) Ex.cheer, Ex.ev (-1000) (-500) Ex.hit ["A", "B"],
      Ex.ev 2500 3000 Ex.hit]) (fun p =>
        Ex.okAnd (Ex.fresh.getDamageInstances p.2) (fun r =>
          decide (p.2.q.map (fun e => (e.primary, e.secondary)) =
              [(-1500, none), (-1000, some (-500)), (2500, some 3000)] ∧
            r.1.map (fun x => (x.time, x.buffs.damageMult)) =
              [(-500, 11 / 10), (-365, 11 / 10), (3000, 11 / 10)]))) = true := by
    decide +kernel
  obtain ⟨⟨o1, events⟩, h1, h⟩ := Ex.ok_of h
  obtain ⟨⟨xs, dbx⟩, h2, h⟩ := Ex.ok_of h
  obtain ⟨h3, h4⟩ := of_decide_eq_true h
  refine ⟨events, xs, .inr ⟨_, _, h1⟩, ?_, by rw [h2]; rfl, h4⟩
  intro e he t ht
  have := List.mem_map_of_mem (f := fun e : Event => (e.primary, e.secondary)) he
  rw [show events.q.map (fun e => (e.primary, e.secondary)) = _ from h3] at this
  simp only [List.mem_cons, Prod.mk.injEq, List.not_mem_nil, or_false] at this
  rcases this with ⟨a, b⟩ | ⟨a, b⟩ | ⟨a, b⟩ <;> rw [a, b] at ht <;>
    simp only [Option.some.injEq, reduceCtorEq, or_false] at ht
  · rw [ht]; exact ⟨-1500000, by norm_num⟩
  · rcases ht with rfl | rfl
    · exact ⟨-1000000, by norm_num⟩
    · exact ⟨-500000, by norm_num⟩
  · rcases ht with rfl | rfl
    · exact ⟨2500000, by norm_num⟩
    · exact ⟨3000000, by norm_num⟩

/-- The theorem applies: the timeline can be moved by half a second. -/
example : ∃ stats lib db events xs, DamageBuilder.init stats lib = .ok db ∧ Timeline events ∧
    Micro 500 ∧ (∀ e ∈ events.q, ∀ t, t = e.primary ∨ some t = e.secondary →
      Micro t ∨ 0 ≤ t ∧ 0 ≤ t + 500) ∧ Lasting lib stats.jobClass ∧
    (db.getDamageInstances events).map Prod.fst = .ok xs ∧
    xs.map (fun x => (x.time, x.buffs.damageMult)) =
      [(-500, 11 / 10), (-365, 11 / 10), (3000, 11 / 10)] := by
  obtain ⟨events, xs, h1, h2, h3, h4⟩ := Ex.prepull
  refine ⟨Ex.stats, Ex.lib, Ex.fresh, events, xs, by decide +kernel, h1, ⟨500000, by norm_num⟩,
    fun e he t ht => .inl (h2 e he t ht), ?_, h3, h4⟩
  intro settings hs
  have : settings = [] := by
    have h0 : Ex.lib.getAllResourceSettings Ex.stats.jobClass = .ok [] := by decide +kernel
    rw [h0] at hs
    exact (Except.ok.inj hs).symm
  rw [this]
  simp

/-- C95 for the shipped libraries: only gauges of Black Mage expire, so that for every other job class
moving a timeline only moves its damage. -/
theorem C95_shipped {version : String} {level : ℕ} {stats : Stats} {lib : SkillLibrary} {db : DamageBuilder}
    {events : Events} {δ : ℚ} (hl : GameData.createSkillLibrary version level = .ok lib)
    (hj : stats.jobClass ≠ "BLM") (hi : DamageBuilder.init stats lib = .ok db) (ht : Timeline events)
    (hd : Micro δ)
    (hm : ∀ e ∈ events.q, ∀ t, t = e.primary ∨ some t = e.secondary →
      Micro t ∨ 0 ≤ t ∧ 0 ≤ t + δ) :
    (db.getDamageInstances (laterTimeline δ events)).map Prod.fst =
      (db.getDamageInstances events).map (fun r => r.1.map (laterInstance δ)) :=
  C95_shift_partial hi ht hd hm (.inl (GameData.lasting_of hl hj))

/-- A damage builder for a Reaper with a shipped library, and a timeline. -/
example : ∃ stats lib db events, GameData.createSkillLibrary "7.05" 100 = .ok lib ∧ stats.jobClass = "RPR" ∧
    DamageBuilder.init stats lib = .ok db ∧ Timeline events ∧ events.q ≠ [] ∧ Micro 500 ∧
    (∀ e ∈ events.q, ∀ t, t = e.primary ∨ some t = e.secondary → Micro t ∨ 0 ≤ t ∧ 0 ≤ t + 500) := by
  obtain ⟨lib, rb, h1, h2, h3, h4, -, -, h5, -⟩ := Ex.reaper_sensible
  obtain ⟨-, -, db, -, h6, -⟩ := C85_shipped_partial h1 h2 h3 h4 (fun _ => by rw [h5]; decide)
  obtain ⟨events, xs, h7, h8, h9, h10⟩ := Ex.prepull
  refine ⟨rb.stats, lib, db, events, h1, by rw [h5]; rfl, h6, h7, ?_, ⟨500000, by norm_num⟩,
    fun e he t ht => .inl (h8 e he t ht)⟩
  intro h
  have : Ex.fresh.getDamageInstances events = Ex.fresh.getDamageInstances { events with q := [] } := by
    rw [← h]
  rw [this] at h9
  obtain rfl : xs = [] := (Except.ok.inj h9).symm
  cases h10

/-! ## The simulation -/

namespace Shift

variable {δ : ℚ}

theorem mapIdx_map' {α β γ : Type} (l : List α) (f : α → β) (g : ℕ → β → γ) :
    (l.map f).mapIdx g = l.mapIdx fun i x => g i (f x) :=
  List.ext_getElem? fun i => by simp [Function.comp_def]

def row (δ : ℚ) (r : DamageRow) : DamageRow := { r with time := r.time + δ }

def track (δ : ℚ) (dt : DamageTracker) : DamageTracker := { dt with rows := dt.rows.map (row δ) }

theorem rowOf_shift (stats : Stats) (x : DamageInstance) :
    Reuse.Rel (Img (row δ)) (DamageSimulator.rowOf stats x)
      (DamageSimulator.rowOf stats (laterInstance δ x)) := by
  unfold DamageSimulator.rowOf
  simp only
  show Reuse.Rel _ (ComputeDamage.getBaseDamage x.skill x.modifier stats (x.buffs, x.debuffs) >>= _)
    (ComputeDamage.getBaseDamage x.skill x.modifier stats (x.buffs, x.debuffs) >>= _)
  refine (Reuse.Rel.refl (R := Eq) (fun _ => rfl) _).bind ?_
  rintro base _ rfl
  cases base with
  | none => rfl
  | some base =>
    simp only
    refine Reuse.Rel.bind (R := Eq) (Reuse.Rel.refl (fun _ => rfl)
      (ComputeDamage.critRatesAndBonuses stats x.skill x.modifier (x.buffs, x.debuffs))) ?_
    rintro rates _ rfl
    refine Reuse.Rel.bind (R := Eq) (Reuse.Rel.refl (fun _ => rfl)
      (ComputeDamage.specOf x.skill x.modifier)) ?_
    rintro d _ rfl
    rfl

theorem fill_shift (stats : Stats) (l : List DamageInstance) :
    Reuse.Rel (Img (track δ)) (DamageSimulator.fill stats l)
      (DamageSimulator.fill stats (l.map (laterInstance δ))) := by
  unfold DamageSimulator.fill
  rw [List.foldlM_map]
  refine Reuse.Rel.foldlM (R := Img (track δ)) ?_ l rfl
  rintro dt _ x rfl
  refine (rowOf_shift stats x).bind ?_
  rintro r _ rfl
  unfold DamageTracker.addDamage track
  simp only [List.length_map]
  split
  · rfl
  split
  · rfl
  · show _ = _
    simp only [List.map_append, List.map_cons, List.map_nil]

end Shift

/-- C95, the simulation: with the same random numbers, damage instances that happen `δ` later give exactly
the same samples of the damage and of the damage per second, the same expected damage and the same
variance; only the times differ. -/
theorem C95_simulated {stats : Stats} {l : List DamageInstance} {n : ℕ} {wr ws : ℕ → ℕ → Draw} {δ : ℚ}
    {s : DamageSimulator} (h : DamageSimulator.init stats l n wr ws = .ok s) :
    ∃ s', DamageSimulator.init stats (l.map (laterInstance δ)) n wr ws = .ok s' ∧
      s'.getRawDamage = s.getRawDamage ∧ s'.getDps = s.getDps ∧
      s'.getDamageMatrix = s.getDamageMatrix ∧
      s'.getExpectedDamagePerInstance = s.getExpectedDamagePerInstance ∧
      s'.getVariancePerInstance = s.getVariancePerInstance ∧
      s'.getDamageTime = s.getDamageTime.map (· + δ) := by
  unfold DamageSimulator.init at h ⊢
  simp only at h ⊢
  have hs : sortBy (fun x : DamageInstance => x.time) (l.map (laterInstance δ)) =
      (sortBy (fun x : DamageInstance => x.time) l).map (laterInstance δ) := by
    rw [sortBy_map]
    congr 1
    refine sortBy_congr _ _ fun x _ y _ => ?_
    show x.time + δ ≤ y.time + δ ↔ _
    exact add_le_add_iff_right δ
  rw [hs]
  generalize sortBy (fun x : DamageInstance => x.time) l = l' at h ⊢
  obtain ⟨dt, h1, h⟩ := Py.bind_eq_ok.1 h
  have key := Shift.fill_shift (δ := δ) stats l'
  rw [h1] at key
  match hz : DamageSimulator.fill stats (l'.map (laterInstance δ)) with
  | .error e => rw [hz] at key; exact key.elim
  | .ok z =>
    rw [hz] at key
    obtain rfl : z = Shift.track δ dt := key
    obtain ⟨rs, h2, h⟩ := Py.bind_eq_ok.1 h
    obtain ⟨⟨mean, var⟩, h3, h⟩ := Py.bind_eq_ok.1 h
    obtain ⟨m, h4, h⟩ := Py.bind_eq_ok.1 h
    have e1 : (Shift.track δ dt).finalize.ranges wr = dt.finalize.ranges wr := by
      unfold DamageTracker.ranges DamageTracker.finalize Shift.track
      simp only [Shift.mapIdx_map']
      rfl
    have e2 : (Shift.track δ dt).finalize.computeDamage n ws = dt.finalize.computeDamage n ws := by
      unfold DamageTracker.computeDamage DamageTracker.finalize Shift.track
      simp only [Shift.mapIdx_map']
      rfl
    have e3 : DamageSimulator.fightTime (l'.map (laterInstance δ)) = DamageSimulator.fightTime l' := by
      unfold DamageSimulator.fightTime
      rw [List.head?_map, List.getLast?_map]
      cases l'.head? with
      | none => rfl
      | some a =>
        cases l'.getLast? with
        | none => rfl
        | some b =>
          show (b.time + δ - (a.time + δ)) / 1000 = (b.time - a.time) / 1000
          ring
    simp only [Py.ok_bind]
    rw [e1, h2]
    simp only [Py.ok_bind]
    rw [h3]
    simp only [Py.ok_bind]
    rw [e2, h4]
    simp only [Py.ok_bind, Py.pure_eq]
    refine ⟨_, rfl, ?_⟩
    rw [← Except.ok.inj h]
    refine ⟨rfl, ?_, rfl, rfl, rfl, ?_⟩
    · unfold DamageSimulator.getDps
      simp only [e3]
    · unfold DamageSimulator.getDamageTime
      show (dt.rows.map (Shift.row δ)).map _ = (dt.rows.map _).map _
      rw [List.map_map, List.map_map]
      rfl

/-- Two instances and two samples. -/
example : ∃ s, DamageSimulator.init Ex.stats Ex.insts 2 (fun _ _ => Ex.half) (fun i j => ⟨i / 2, j / 2, 1 / 3⟩) =
      .ok s ∧ s.getRawDamage = [26514, 16490] ∧ s.getDamageTime = [0, 2000] := by
  have h : Ex.okAnd (DamageSimulator.init Ex.stats Ex.insts 2 (fun _ _ => Ex.half)
      (fun i j => ⟨i / 2, j / 2, 1 / 3⟩)) (fun s => decide (s.getRawDamage = [26514, 16490] ∧ s.getDamageTime = [0, 2000])) = true := by
    decide +kernel
  obtain ⟨s, h1, h2⟩ := Ex.ok_of h
  exact ⟨s, h1, of_decide_eq_true h2⟩

end Ama
