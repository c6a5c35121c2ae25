import Verif.Lemmas.Extending
import Verif.Examples.Rotation

/-!
# Properties of adding skills to a rotation (C102)
-/

namespace Ama

open Spec RotationBuilder

variable {rb rb' : RotationBuilder} {ops : List BuilderOp}

/-- C102, presses.  Whatever public calls are made on a builder, the presses reported before are still
reported - the same skills of the same jobs under the same conditions, and at the same times, unless
the fight start is found from the first damage, which may move all of them by one amount - together
with one press for each skill added. -/
theorem C102_presses {fuel fuel' : ℕ} {a b : RotationBuilder}
    (h : ops.foldlM BuilderOp.run rb = .ok rb') (ha : rb.getSkillTiming fuel = .ok a)
    (hb : rb'.getSkillTiming fuel' = .ok b) :
    ∃ δ rest, b.getButtonPressTiming.Perm (a.getButtonPressTiming.map (earlier δ) ++ rest) ∧
      rest.length = (ops.map BuilderOp.count).sum ∧ (rb.fightStart ≠ none → δ = 0) := by
  obtain ⟨ra⟩ := run_of_ok ha
  obtain ⟨rB⟩ := run_of_ok hb
  obtain ⟨δa, a1, _, _, a4, _⟩ := ra.spec
  obtain ⟨δb, b1, _, _, b4, _⟩ := rB.spec
  obtain ⟨hs, ms, mt, h1, h2, h3, _⟩ := ops_extend h
  obtain ⟨la, la', g1, g2, _, g4⟩ := afterPresses_parts
    (show afterPresses rb = .ok (rb.start.apply ra.log) by rw [afterPresses_eq, ra.queue]; rfl)
  obtain ⟨lb, lb', k1, k2, _, k4⟩ := afterPresses_parts
    (show afterPresses rb' = .ok (rb'.start.apply rB.log) by rw [afterPresses_eq, rB.queue]; rfl)
  have e4 : ra.log.presses = la.presses ++ la'.presses := by
    rw [← g4]
    change _ = rb.start.presses ++ ra.log.presses
    rw [(start_fields rb).2.2.2.2.2.2.2.2.2.2.2.2.1, List.nil_append]
  have f4 : rB.log.presses = lb.presses ++ lb'.presses := by
    rw [← k4]
    change _ = rb'.start.presses ++ rB.log.presses
    rw [(start_fields rb').2.2.2.2.2.2.2.2.2.2.2.2.1, List.nil_append]
  obtain ⟨x, rfl, hx⟩ := seqLog_longer hs h1 g1 k1
  have t1 := timedLog_presses g2
  have t2 := timedLog_presses k2
  rw [h2, hs.1, List.map_append] at t2
  set new := mt.map (fun p : TimedPress => reported rb.stats p.t p.skill p.modifier p.jobClass) with hnew
  have hperm : rB.log.presses.Perm (ra.log.presses ++ (x.presses ++ new)) := by
    rw [e4, f4, Log.app_presses, List.append_assoc, List.append_assoc]
    refine List.Perm.append_left _ ?_
    refine (List.Perm.append_left _ (t2.trans (t1.symm.append_right _))).trans ?_
    rw [← List.append_assoc, ← List.append_assoc]
    exact List.perm_append_comm.append_right _
  refine ⟨δb - δa, (x.presses ++ new).map (earlier δb), ?_, ?_, ?_⟩
  · unfold getButtonPressTiming
    rw [a4, b4]
    refine (sortBy_perm _ _).trans ((sortBy_perm _ _).trans ?_)
    refine (hperm.map _).trans ?_
    rw [List.map_append]
    refine List.Perm.append ?_ (.refl _)
    refine List.Perm.trans (.of_eq ?_)
      (((sortBy_perm _ _).trans (sortBy_perm _ _)).symm.map (earlier (δb - δa)))
    rw [List.map_map]
    refine List.map_congr_left fun p _ => ?_
    simp only [Function.comp, earlier, sub_sub, add_sub_cancel]
  · rw [List.length_map, List.length_append, hx, hnew, List.length_map, h3]
  · intro hf
    rw [a1 hf, b1 (by rw [hs.2.2.1]; exact hf), sub_zero]

/-- Without a fight start, a skill added at -4 s becomes the first damage and moves the others. -/
example : ∃ rb rb' a b, Ex.calls (Ex.start) [Ex.next "Haste", Ex.next "Hit" 2] = .ok rb ∧
    [Ex.at_ (-4) "Hit"].foldlM BuilderOp.run rb = .ok rb' ∧ rb.getSkillTiming 0 = .ok a ∧
    rb'.getSkillTiming 0 = .ok b ∧
    a.getButtonPressTiming.map (fun p => (p.t, p.name)) =
      [(-1150, "Haste"), (-500, "Hit"), (1330, "Hit")] ∧
    b.getButtonPressTiming.map (fun p => (p.t, p.name)) =
      [(-500, "Hit"), (3500, "Haste"), (4150, "Hit"), (5980, "Hit")] := by
  obtain ⟨rb, h1, h⟩ := Ex.ok_of (show Ex.okAnd (Ex.calls (Ex.start)
      [Ex.next "Haste", Ex.next "Hit" 2]) (fun rb =>
      Ex.okAnd (rb.getSkillTiming 0) (fun a =>
      Ex.okAnd ([Ex.at_ (-4) "Hit"].foldlM BuilderOp.run rb) (fun rb' =>
      Ex.okAnd (rb'.getSkillTiming 0) (fun b => decide (
        a.getButtonPressTiming.map (fun p => (p.t, p.name)) =
          [(-1150, "Haste"), (-500, "Hit"), (1330, "Hit")] ∧
        b.getButtonPressTiming.map (fun p => (p.t, p.name)) =
          [(-500, "Hit"), (3500, "Haste"), (4150, "Hit"), (5980, "Hit")]))))) = true by
    decide +kernel)
  obtain ⟨a, h2, h⟩ := Ex.ok_of h
  obtain ⟨rb', h3, h⟩ := Ex.ok_of h
  obtain ⟨b, h4, h⟩ := Ex.ok_of h
  obtain ⟨h5, h6⟩ := of_decide_eq_true h
  exact ⟨rb, rb', a, b, h1, h3, h2, h4, h5, h6⟩

/-- C102, events.  If no timed skill is added before, or at the time of, one that is already there, then
everything that the presses did before they still do - the same skills with the same conditions, buffs,
debuffs and targets at the same times - and the rest comes on top.  (This is about what the presses
do themselves: ticks of dots and auto-attacks are made from them later on.) -/
theorem C102_events {r r' : RotationBuilder} (h : ops.foldlM BuilderOp.run rb = .ok rb')
    (hl : ∀ op ∈ ops, op.After rb) (hr : afterPresses rb = .ok r) (hr' : afterPresses rb' = .ok r') :
    ∃ kept rest, List.Forall₂ SameEvent r.events.q kept ∧ r'.events.q.Perm (kept ++ rest) := by
  obtain ⟨hs, ms, mt, h1, h2, _, h4⟩ := ops_extend h
  obtain ⟨la, la', g1, g2, g3, _⟩ := afterPresses_parts hr
  obtain ⟨lb, lb', k1, k2, k3, _⟩ := afterPresses_parts hr'
  obtain ⟨x, rfl, _⟩ := seqLog_longer hs h1 g1 k1
  obtain ⟨y, rfl⟩ := timedLog_longer hs h2 (fun p hp => by
    obtain ⟨t, name, m, job, targets, h5, h6⟩ := h4 p hp
    obtain ⟨h7, h8⟩ := hl _ h5
    exact ⟨h7, fun p' hp' => by rw [h6]; exact h8 p' hp'⟩) g2 k2
  have hperm : ((la.app x).adds ++ (la'.app y).adds).Perm
      ((la.adds ++ la'.adds) ++ (x.adds ++ y.adds)) := by
    simp only [Log.app_adds, List.append_assoc]
    refine List.Perm.append_left _ ?_
    rw [← List.append_assoc, ← List.append_assoc]
    exact List.perm_append_comm.append_right _
  obtain ⟨xs, ys, e1, _, e3⟩ := pushes_append hperm
  exact ⟨xs, ys, by rw [g3]; exact e1, by rw [k3]; exact e3⟩

/-- The faster hit stays where it was, though a timed hit and another of the sequence are added. -/
example : ∃ rb rb' r r', Ex.calls (Ex.start) [Ex.next "Haste", Ex.at_ 1 "Hit", Ex.next "Spell"] = .ok rb ∧
    [Ex.at_ 3 "Venom", Ex.next "Hit"].foldlM BuilderOp.run rb = .ok rb' ∧
    (∀ op ∈ [Ex.at_ 3 "Venom", Ex.next "Hit"], op.After rb) ∧
    afterPresses rb = .ok r ∧ afterPresses rb' = .ok r' ∧
    r.events.q.map (fun e => (e.primary, e.skill.name)) =
      [(0, "Haste"), (1610, "Spell"), (1000, "Hit")] ∧
    sortBy (·.1) (r'.events.q.map (fun e => (e.primary, e.skill.name))) =
      [(0, "Haste"), (1000, "Hit"), (1610, "Spell"), (2760, "Hit"), (3000, "Venom")] := by
  obtain ⟨rb, h1, h⟩ := Ex.ok_of (show Ex.okAnd (Ex.calls (Ex.start)
      [Ex.next "Haste", Ex.at_ 1 "Hit", Ex.next "Spell"]) (fun rb =>
      Ex.okAnd (afterPresses rb) (fun r =>
      Ex.okAnd ([Ex.at_ 3 "Venom", Ex.next "Hit"].foldlM BuilderOp.run rb) (fun rb' =>
      Ex.okAnd (afterPresses rb') (fun r' => decide (
        (rb.qTimed.map (·.t) = [1000]) ∧
        r.events.q.map (fun e => (e.primary, e.skill.name)) =
          [(0, "Haste"), (1610, "Spell"), (1000, "Hit")] ∧
        sortBy (·.1) (r'.events.q.map (fun e => (e.primary, e.skill.name))) =
          [(0, "Haste"), (1000, "Hit"), (1610, "Spell"), (2760, "Hit"), (3000, "Venom")]))))) = true by
    decide +kernel)
  obtain ⟨r, h2, h⟩ := Ex.ok_of h
  obtain ⟨rb', h3, h⟩ := Ex.ok_of h
  obtain ⟨r', h4, h⟩ := Ex.ok_of h
  obtain ⟨h5, h6, h7⟩ := of_decide_eq_true h
  refine ⟨rb, rb', r, r', h1, h3, ?_, h2, h4, h6, h7⟩
  intro op hop
  simp only [List.mem_cons, List.not_mem_nil, or_false] at hop
  rcases hop with rfl | rfl
  · refine ⟨by rw [h5]; decide, fun p hp => ?_⟩
    have : p.t ∈ rb.qTimed.map (·.t) := List.mem_map.2 ⟨p, hp, rfl⟩
    rw [h5, List.mem_singleton] at this
    rw [this]
    decide +kernel
  · trivial

/-- C102, independence.  Skills of the sequence and timed skills do not influence each other: a
rotation with both does what the rotation with only the first and the rotation with only the second do,
and raises only if one of them does. -/
theorem C102_independent {stats : Stats} {lib : SkillLibrary} {snapDots : Option ℚ}
    {autos trailing : Bool} {fightStart : Option ℚ} {downtime : RawDowntime} {target : String}
    {rb₀ rbs rbt : RotationBuilder}
    (h₀ : RotationBuilder.init stats lib snapDots autos trailing fightStart downtime target = .ok rb₀)
    (h : ops.foldlM BuilderOp.run rb₀ = .ok rb)
    (hs : (ops.filter (fun op => !op.isTimed)).foldlM BuilderOp.run rb₀ = .ok rbs)
    (ht : (ops.filter (fun op => !op.isNext)).foldlM BuilderOp.run rb₀ = .ok rbt) :
    ((∃ r, afterPresses rb = .ok r) ↔
      (∃ r, afterPresses rbs = .ok r) ∧ ∃ r, afterPresses rbt = .ok r) ∧
    ∀ r s t, afterPresses rb = .ok r → afterPresses rbs = .ok s → afterPresses rbt = .ok t →
      r.presses = s.presses ++ t.presses ∧
      ∃ xs ys, List.Forall₂ SameEvent s.events.q xs ∧ List.Forall₂ SameEvent t.events.q ys ∧
        r.events.q.Perm (xs ++ ys) := by
  have hq₀ : rb₀.qSequence = [] ∧ rb₀.qTimed = [] := by
    unfold RotationBuilder.init at h₀
    obtain ⟨p, _, h₀⟩ := Py.bind_eq_ok.1 h₀
    cases h₀
    exact ⟨rfl, rfl⟩
  obtain ⟨s0, s1, s2⟩ := ops_sequence (.refl _) rfl h hs
  obtain ⟨t0, t1, t2⟩ := ops_timed (.refl _) rfl h ht
  rw [hq₀.2] at s2
  rw [hq₀.1] at t2
  have es := seqLog_congr s0 s1
  have et := timedLog_congr t0 t1
  have empty_t : ∀ l', rbs.timedLog = .ok l' → l' = {} := by
    intro l' hl
    obtain ⟨tc, order, st, _, a2, _, a4⟩ := timedLog_fold hl
    rw [s2] at a2
    rw [a2.eq_nil] at a4
    cases a4
    rfl
  have empty_s : ∀ l', rbt.seqLog = .ok l' → l' = {} := by
    intro l' hl
    unfold seqLog at hl
    rw [t2] at hl
    obtain ⟨tc, _, hl⟩ := Py.bind_eq_ok.1 hl
    cases hl
    rfl
  have init_of : ∀ {a : RotationBuilder} {l : Log}, a.seqLog = .ok l → ∃ tc, a.initTrackers = .ok tc := by
    intro a l hl
    unfold seqLog at hl
    obtain ⟨tc, hl, _⟩ := Py.bind_eq_ok.1 hl
    exact ⟨tc, hl⟩
  refine ⟨⟨?_, ?_⟩, ?_⟩
  · rintro ⟨r, hr⟩
    obtain ⟨l, l', g1, g2, _⟩ := afterPresses_parts hr
    obtain ⟨tc, htc⟩ := init_of g1
    constructor
    · refine afterPresses_of_parts (l' := {}) (es.trans g1) ?_
      unfold timedLog
      rw [s0.trackers, htc, s2]
      rfl
    · refine afterPresses_of_parts (l := {}) ?_ (et.trans g2)
      unfold seqLog
      rw [t0.trackers, htc, t2]
      rfl
  · rintro ⟨⟨s, hs'⟩, ⟨t, ht'⟩⟩
    obtain ⟨l, _, g1, _⟩ := afterPresses_parts hs'
    obtain ⟨_, l', _, g2, _⟩ := afterPresses_parts ht'
    exact afterPresses_of_parts (es ▸ g1) (et ▸ g2)
  · intro r s t hr hs' ht'
    obtain ⟨l, l', g1, g2, g3, g4⟩ := afterPresses_parts hr
    obtain ⟨ls, ls', a1, a2, a3, a4⟩ := afterPresses_parts hs'
    obtain ⟨lt, lt', b1, b2, b3, b4⟩ := afterPresses_parts ht'
    have := empty_t _ a2
    subst this
    have := empty_s _ b1
    subst this
    rw [es, g1] at a1
    cases a1
    rw [et, g2] at b2
    cases b2
    refine ⟨by rw [g4, a4, b4]; simp, ?_⟩
    obtain ⟨xs, ys, e1, e2, e3⟩ := pushes_append (.refl (l.adds ++ l'.adds))
    exact ⟨xs, ys, by rw [a3]; simpa using e1, by rw [b3]; simpa using e2, by rw [g3]; exact e3⟩

/-- Haste in the sequence does not make the timed Spell faster, although it is used after it. -/
example : ∃ rb rbs rbt r s t,
    [Ex.next "Haste", Ex.at_ 1 "Spell", Ex.next "Hit"].foldlM BuilderOp.run Ex.start = .ok rb ∧
    ([Ex.next "Haste", Ex.at_ 1 "Spell", Ex.next "Hit"].filter (fun op => !op.isTimed)).foldlM
      BuilderOp.run Ex.start = .ok rbs ∧
    ([Ex.next "Haste", Ex.at_ 1 "Spell", Ex.next "Hit"].filter (fun op => !op.isNext)).foldlM
      BuilderOp.run Ex.start = .ok rbt ∧
    afterPresses rb = .ok r ∧ afterPresses rbs = .ok s ∧ afterPresses rbt = .ok t ∧
    r.events.q.map (fun e => (e.primary, e.skill.name)) =
      [(0, "Haste"), (650, "Hit"), (2450, "Spell")] ∧
    s.events.q.map (fun e => (e.primary, e.skill.name)) = [(0, "Haste"), (650, "Hit")] ∧
    t.events.q.map (fun e => (e.primary, e.skill.name)) = [(2450, "Spell")] := by
  obtain ⟨rb, h1, h⟩ := Ex.ok_of (show Ex.okAnd ([Ex.next "Haste", Ex.at_ 1 "Spell",
      Ex.next "Hit"].foldlM BuilderOp.run Ex.start) (fun rb =>
      Ex.okAnd (([Ex.next "Haste", Ex.at_ 1 "Spell", Ex.next "Hit"].filter
        (fun op => !op.isTimed)).foldlM BuilderOp.run Ex.start) (fun rbs =>
      Ex.okAnd (([Ex.next "Haste", Ex.at_ 1 "Spell", Ex.next "Hit"].filter
        (fun op => !op.isNext)).foldlM BuilderOp.run Ex.start) (fun rbt =>
      Ex.okAnd (afterPresses rb) (fun r => Ex.okAnd (afterPresses rbs) (fun s =>
      Ex.okAnd (afterPresses rbt) (fun t => decide (
        r.events.q.map (fun e => (e.primary, e.skill.name)) =
          [(0, "Haste"), (650, "Hit"), (2450, "Spell")] ∧
        s.events.q.map (fun e => (e.primary, e.skill.name)) = [(0, "Haste"), (650, "Hit")] ∧
        t.events.q.map (fun e => (e.primary, e.skill.name)) = [(2450, "Spell")]))))))) = true by
    decide +kernel)
  obtain ⟨rbs, h2, h⟩ := Ex.ok_of h
  obtain ⟨rbt, h3, h⟩ := Ex.ok_of h
  obtain ⟨r, h4, h⟩ := Ex.ok_of h
  obtain ⟨s, h5, h⟩ := Ex.ok_of h
  obtain ⟨t, h6, h⟩ := Ex.ok_of h
  obtain ⟨h7, h8, h9⟩ := of_decide_eq_true h
  exact ⟨rb, rbs, rbt, r, s, t, h1, h2, h3, h4, h5, h6, h7, h8, h9⟩

end Ama
