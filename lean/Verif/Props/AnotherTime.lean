import Verif.Lemmas.AnotherTimeExact
import Verif.Examples.Rotation

/-!
# Properties of playing a rotation at another time (C103)
-/

namespace Ama

open Spec RotationBuilder

variable {k : ℤ} {stats : Stats} {lib : SkillLibrary} {start : Option ℚ} {target : String}
  {rb₀ rb₀' rb rb' a b : RotationBuilder} {ops : List BuilderOp} {fuel fuel' : ℕ}

/-- None of the gauges of the small library expires. -/
theorem Ex.lasting : Lasting Ex.lib Ex.stats.jobClass := by
  intro settings h kv hkv
  have : settings = [] := by
    have h' : Ex.lib.getAllResourceSettings Ex.stats.jobClass = .ok [] := by decide +kernel
    rw [h'] at h
    cases h
    rfl
  rw [this] at hkv
  simp at hkv

/-- C103, presses; partial.  Missing: jobs with a gauge that expires (changing one at time 0 is
special, as in C95).

Make the same public calls on two builders, giving the second one a fight start and times `k`
milliseconds later (whole milliseconds, and no skills in sequence if there is no fight start).  The
presses do the same things `k` later: the presses recorded, the skills, their conditions, what they
take from parties and targets, and their times; and one raises exactly when the other does.  This holds
whatever is asked about dots, auto-attacks and downtime. -/
theorem C103_presses_partial {snapDots snapDots' : Option ℚ} {autos trailing autos' trailing' : Bool}
    {downtime downtime' : RawDowntime}
    (h₀ : RotationBuilder.init stats lib snapDots autos trailing start downtime target = .ok rb₀)
    (h₀' : RotationBuilder.init stats lib snapDots' autos' trailing' (start.map (· + (k : ℚ)))
      downtime' target = .ok rb₀')
    (hm : ∀ op ∈ ops, op.Milli) (hs : start ≠ none ∨ ∀ op ∈ ops, op.isNext = false)
    (h : ops.foldlM BuilderOp.run rb₀ = .ok rb)
    (h' : (ops.map (BuilderOp.later k)).foldlM BuilderOp.run rb₀' = .ok rb')
    (hl : Lasting lib stats.jobClass) :
    (∀ e, afterPresses rb = .error e ↔ afterPresses rb' = .error e) ∧
    ∀ r r', afterPresses rb = .ok r → afterPresses rb' = .ok r' →
      r'.presses = r.presses.map (laterPress k) ∧
      Changed (fun e e' => MovedLater k e e' ∧ RankedLater k e e') r.events.q r'.events.q := by
  obtain ⟨h1, h2, h3, _, _⟩ := built_later h₀ h₀' hm hs h h'
  have key := logs_later h1 (by rw [h2, h3]; exact hl)
  rw [afterPresses_eq, afterPresses_eq]
  obtain ⟨e1, e2, e3, e4, e5, e6, e7, e8, e9, e10, e11, e12, e13, e14, _⟩ := start_fields rb
  obtain ⟨f1, f2, f3, f4, f5, f6, f7, f8, f9, f10, f11, f12, f13, f14, _⟩ := start_fields rb'
  match hx : rb.start.queueLog, hy : rb'.start.queueLog with
  | .ok x, .ok y =>
    rw [hx, hy] at key
    obtain rfl : y = logLater k x := key
    refine ⟨fun e => ⟨nofun, nofun⟩, ?_⟩
    intro r r' hr hr'
    cases hr
    cases hr'
    constructor
    · show rb'.start.presses ++ (logLater k x).presses = (rb.start.presses ++ x.presses).map _
      rw [e13, f13]
      rfl
    · show Changed _ (x.adds.foldl Events.push rb.start.events).q
        ((logLater k x).adds.foldl Events.push rb'.start.events).q
      rw [e14, f14]
      exact pushes_later k _
  | .error x, .error y =>
    rw [hx, hy] at key
    obtain rfl : x = y := key
    refine ⟨fun e => ⟨fun h => h, fun h => h⟩, ?_⟩
    intro r r' hr
    cases hr
  | .ok x, .error y => rw [hx, hy] at key; exact key.elim
  | .error x, .ok y => rw [hx, hy] at key; exact key.elim

theorem laterDowntime_zero (x : RawDowntime) : laterDowntime 0 x = x := by
  have hw : ∀ ws : List RawWindow, ws.map (laterWindow 0) = ws := by
    intro ws
    conv_rhs => rw [← List.map_id ws]
    refine List.map_congr_left fun w _ => ?_
    simp [laterWindow]
  cases x with
  | tuple ws => exact congrArg _ (hw ws)
  | dict x =>
    refine congrArg RawDowntime.dict ?_
    conv_rhs => rw [← List.map_id x]
    refine List.map_congr_left fun kv _ => ?_
    rw [hw]
    rfl

theorem rest_of {snapDots : Option ℚ} {autos trailing : Bool} {downtime : RawDowntime}
    (h₀ : RotationBuilder.init stats lib snapDots autos trailing start downtime target = .ok rb₀)
    (h₀' : RotationBuilder.init stats lib (snapDots.map (· + (k : ℚ) / 1000)) autos trailing (start.map (· + (k : ℚ)))
      (if start = none then downtime else laterDowntime k downtime) target = .ok rb₀')
    (hm : ∀ op ∈ ops, op.Milli) (hn : ∀ op ∈ ops, op.isTiming = false)
    (hsnap : ∀ s, snapDots = some s → ∃ n : ℤ, 1000 * s = n)
    (h : ops.foldlM BuilderOp.run rb₀ = .ok rb)
    (h' : (ops.map (BuilderOp.later k)).foldlM BuilderOp.run rb₀' = .ok rb') :
    RestSame k (if start = none then 0 else k) rb rb' := by
  refine rest_later (k := k) (start' := start.map (· + (k : ℚ))) hsnap h₀ ?_ hm hn h h'
  rw [← h₀']
  split
  · rw [laterDowntime_zero]
  · rfl

/-- C103, timeline; partial.  Missing: jobs with a gauge that expires, auto-attacks (see the
next theorem), server ticks other than at whole milliseconds, calls of `get_skill_timing` in between, and -
refuted below - rotations that ignore trailing dots and end at time 0.

Given a fight start, the same rotation with everything, downtime and server ticks included, `k` milliseconds later has
the same presses and the same timeline, `k` later.  Without a fight start (and skills in sequence),
adding the same time to all timed skills and the server ticks changes nothing. -/
theorem C103_timeline_partial {snapDots : Option ℚ} {autos trailing : Bool} {downtime : RawDowntime}
    (h₀ : RotationBuilder.init stats lib snapDots autos trailing start downtime target = .ok rb₀)
    (h₀' : RotationBuilder.init stats lib (snapDots.map (· + (k : ℚ) / 1000)) autos trailing (start.map (· + (k : ℚ)))
      (if start = none then downtime else laterDowntime k downtime) target = .ok rb₀')
    (hm : ∀ op ∈ ops, op.Milli) (hs : start ≠ none ∨ ∀ op ∈ ops, op.isNext = false)
    (hn : ∀ op ∈ ops, op.isTiming = false) (hsnap : ∀ s, snapDots = some s → ∃ n : ℤ, 1000 * s = n)
    (h : ops.foldlM BuilderOp.run rb₀ = .ok rb)
    (h' : (ops.map (BuilderOp.later k)).foldlM BuilderOp.run rb₀' = .ok rb')
    (hl : Lasting lib stats.jobClass) (hautos : rb.enableAutos = false)
    (htrail : rb.ignoreTrailingDots = true → ∀ r, afterPresses rb = .ok r →
      ∀ t, r.events.getLastEventTime = some t → t ≠ 0 ∧ t + k ≠ 0)
    (ha : rb.getSkillTiming fuel = .ok a) (hb : rb'.getSkillTiming fuel' = .ok b)
    (hd : start ≠ none ∨ ∃ e ∈ a.events.q, Damaging e) :
    b.getButtonPressTiming = a.getButtonPressTiming.map (laterPress (if start = none then 0 else k)) ∧
    Changed (fun e e' => MovedLater (if start = none then 0 else k) e e' ∧
      (start ≠ none → RankedLater k e e')) a.events.q b.events.q := by
  obtain ⟨h1, h2, h3, h4, h5⟩ := built_later h₀ h₀' hm hs h h'
  have hr := rest_of h₀ h₀' hm hn hsnap h h'
  obtain ⟨g1, g2⟩ := timing_later h1 hr (by rw [h2, h3]; exact hl) hautos htrail ha hb (by
    rw [h4, h5]
    cases start with
    | none => exact .inl ⟨rfl, rfl, rfl, hd.resolve_left (fun h => h rfl)⟩
    | some t => exact .inr ⟨by simp, by simp, by simp⟩)
  constructor
  · unfold getButtonPressTiming
    rw [g2, sortPresses_later]
  · rw [h4] at g1
    refine changed_imp g1 fun e e' he => ⟨he.1, fun hne => ?_⟩
    have := he.2 hne
    rwa [if_neg hne] at this

/-- C103, exactly; partial.  Missing: jobs with a gauge that expires, server ticks other than at whole
milliseconds, calls of `get_skill_timing` in between, times before 0 that are no whole microseconds, and -
refuted below - rotations that ignore trailing dots and end at time 0, and auto-attacks in rotations that
have downtime but no fight start.

If the timeline of a rotation can be computed, then it can be computed, in as many steps, for the
same rotation `k` milliseconds later.  Given a fight start, the result is exactly the same timeline, `k`
later - ids, priorities and the arrangement in the queue included, and with all auto-attacks; and so are the
presses.  Without a fight start, nothing changes at all. -/
theorem C103_exact_partial {snapDots : Option ℚ} {autos trailing : Bool} {downtime : RawDowntime}
    (h₀ : RotationBuilder.init stats lib snapDots autos trailing start downtime target = .ok rb₀)
    (h₀' : RotationBuilder.init stats lib (snapDots.map (· + (k : ℚ) / 1000)) autos trailing (start.map (· + (k : ℚ)))
      (if start = none then downtime else laterDowntime k downtime) target = .ok rb₀')
    (hm : ∀ op ∈ ops, op.Milli) (hs : start ≠ none ∨ ∀ op ∈ ops, op.isNext = false)
    (hn : ∀ op ∈ ops, op.isTiming = false) (hsnap : ∀ s, snapDots = some s → ∃ n : ℤ, 1000 * s = n)
    (h : ops.foldlM BuilderOp.run rb₀ = .ok rb)
    (h' : (ops.map (BuilderOp.later k)).foldlM BuilderOp.run rb₀' = .ok rb')
    (hl : Lasting lib stats.jobClass)
    (hautos : rb.enableAutos = true → start ≠ none ∨ downtime = .tuple [])
    (htrail : rb.ignoreTrailingDots = true → ∀ r, afterPresses rb = .ok r →
      ∀ t, r.events.getLastEventTime = some t → t ≠ 0 ∧ t + k ≠ 0)
    (hprio : ∀ r, beforeDowntime fuel rb = .ok r → ∀ e ∈ r.events.q,
      ∀ t, t = e.primary ∨ some t = e.secondary → Micro t ∨ 0 ≤ t ∧ 0 ≤ t + k)
    (ha : rb.getSkillTiming fuel = .ok a) (hd : start ≠ none ∨ ∃ e ∈ a.events.q, Damaging e) :
    ∃ b, rb'.getSkillTiming fuel = .ok b ∧
      (start ≠ none → b.events = laterTimeline k a.events ∧
        b.getButtonPressTiming = a.getButtonPressTiming.map (laterPress k)) ∧
      (start = none → b.events = a.events ∧ b.getButtonPressTiming = a.getButtonPressTiming) := by
  obtain ⟨h1, h2, h3, h4, h5⟩ := built_later h₀ h₀' hm hs h h'
  have hr := rest_of h₀ h₀' hm hn hsnap h h'
  have hau : rb.enableAutos = true → rb'.downtime = downtimeLater k rb.downtime := by
    intro hae
    rcases hautos hae with hne | he
    · rw [hr.downtime, if_neg hne]
    · refine (rest_later (k := k) (d := k) (start' := start.map (· + (k : ℚ))) hsnap h₀ ?_ hm hn h h').downtime
      rw [← h₀', he]
      split <;> rfl
  have hpr : ∀ r, beforeDowntime fuel rb = .ok r → ∀ e ∈ r.events.q,
      PrioOk k e.primary ∧ PrioOk k (appliedAt e) := by
    intro r hr e he
    have := hprio r hr e he
    refine ⟨this _ (.inl rfl), ?_⟩
    unfold appliedAt
    cases hse : e.secondary with
    | none => exact this _ (.inl rfl)
    | some t => exact this t (.inr hse.symm)
  obtain ⟨b, g1, g2, g3⟩ := timing_exact h1 hr (by rw [h2, h3]; exact hl) hau htrail hpr ha (by
    rw [h4, h5]
    cases start with
    | none => exact .inl ⟨rfl, rfl, rfl, hd.resolve_left (fun h => h rfl)⟩
    | some t => exact .inr ⟨by simp, by simp, by simp⟩)
  refine ⟨b, g1, fun hne => ?_, fun hne => ?_⟩
  · rw [if_neg hne] at g2 g3
    refine ⟨g2, ?_⟩
    unfold getButtonPressTiming
    rw [g3, sortPresses_later]
  · rw [if_pos hne] at g2 g3
    rw [laterTimeline_zero] at g2
    refine ⟨g2, ?_⟩
    unfold getButtonPressTiming
    rw [g3]
    congr 1
    conv_rhs => rw [← List.map_id a.presses]
    refine List.map_congr_left fun p _ => ?_
    simp [laterPress]

/-- What the tests below look at. -/
def Ex.look (r : RotationBuilder) : List (ℚ × String) × List (ℚ × ℚ × String) :=
  (r.getButtonPressTiming.map (fun p => (p.t, p.name)),
    sortBy (·.2.1) (r.events.q.map (fun e => (e.primary, appliedAt e, e.skill.name))))

/-- A rotation that starts at 0 and at 2.5 seconds, with server ticks and a downtime window that move
too.  The window removes the second tick of the poison. -/
example : ∃ rb rb' a b,
    [Ex.next "Haste", Ex.next "Spell", Ex.at_ (1 / 2) "Venom"].foldlM BuilderOp.run
      (Ex.start (some (1 / 2)) false false (some 0) (.tuple [⟨6, 7, none⟩])) = .ok rb ∧
    ([Ex.next "Haste", Ex.next "Spell", Ex.at_ (1 / 2) "Venom"].map (BuilderOp.later 2500)).foldlM
      BuilderOp.run (Ex.start (some (1 / 2 + ((2500 : ℤ) : ℚ) / 1000)) false false ((some (0 : ℚ)).map (· + ((2500 : ℤ) : ℚ)))
        (laterDowntime 2500 (.tuple [⟨6, 7, none⟩]))) = .ok rb' ∧
    (∀ op ∈ [Ex.next "Haste", Ex.next "Spell", Ex.at_ (1 / 2) "Venom"], op.Milli) ∧
    rb.getSkillTiming 0 = .ok a ∧ rb'.getSkillTiming 0 = .ok b ∧
    Ex.look a = ([(0, "Haste"), (500, "Venom"), (650, "Spell")],
      [(0, 0, "Haste"), (500, 1200, "Venom"), (1610, 2410, "Spell"), (500, 3500, "Poison"), (500, 9500, "Poison")]) ∧
    Ex.look b = ([(2500, "Haste"), (3000, "Venom"), (3150, "Spell")],
      [(2500, 2500, "Haste"), (3000, 3700, "Venom"), (4110, 4910, "Spell"), (3000, 6000, "Poison"),
       (3000, 12000, "Poison")]) := by
  obtain ⟨rb, h1, h⟩ := Ex.ok_of (show Ex.okAnd (([Ex.next "Haste", Ex.next "Spell",
      Ex.at_ (1 / 2) "Venom"].foldlM BuilderOp.run
      (Ex.start (some (1 / 2)) false false (some 0) (.tuple [⟨6, 7, none⟩])))) (fun rb =>
      Ex.okAnd (rb.getSkillTiming 0) (fun a =>
      Ex.okAnd (([Ex.next "Haste", Ex.next "Spell", Ex.at_ (1 / 2) "Venom"].map
        (BuilderOp.later 2500)).foldlM BuilderOp.run (Ex.start (some (1 / 2 + ((2500 : ℤ) : ℚ) / 1000)) false false
        ((some (0 : ℚ)).map (· + ((2500 : ℤ) : ℚ))) (laterDowntime 2500 (.tuple [⟨6, 7, none⟩]))))
        (fun rb' => Ex.okAnd (rb'.getSkillTiming 0) (fun b => decide (
        Ex.look a = ([(0, "Haste"), (500, "Venom"), (650, "Spell")],
          [(0, 0, "Haste"), (500, 1200, "Venom"), (1610, 2410, "Spell"), (500, 3500, "Poison"),
           (500, 9500, "Poison")]) ∧
        Ex.look b = ([(2500, "Haste"), (3000, "Venom"), (3150, "Spell")],
          [(2500, 2500, "Haste"), (3000, 3700, "Venom"), (4110, 4910, "Spell"), (3000, 6000, "Poison"),
           (3000, 12000, "Poison")])))))) = true by decide +kernel)
  obtain ⟨a, h2, h⟩ := Ex.ok_of h
  obtain ⟨rb', h3, h⟩ := Ex.ok_of h
  obtain ⟨b, h4, h⟩ := Ex.ok_of h
  obtain ⟨h5, h6⟩ := of_decide_eq_true h
  refine ⟨rb, rb', a, b, h1, h3, ?_, h2, h4, h5, h6⟩
  intro op hop
  simp only [List.mem_cons, List.not_mem_nil, or_false] at hop
  rcases hop with rfl | rfl | rfl
  · trivial
  · trivial
  · exact ⟨500, by norm_num⟩

/-- All events of the builder are at whole microseconds. -/
def Ex.micro (r : RotationBuilder) : Bool :=
  r.events.q.all (fun e => decide ((1000 * e.primary).den = 1) &&
    match e.secondary with
    | none => true
    | some t => decide ((1000 * t).den = 1))

theorem Ex.micro_of {r : RotationBuilder} (h : Ex.micro r = true) :
    ∀ e ∈ r.events.q, ∀ t, t = e.primary ∨ some t = e.secondary → Micro t := by
  intro e he t ht
  have := List.all_eq_true.1 h e he
  rw [Bool.and_eq_true] at this
  have hd : ∀ t : ℚ, (1000 * t).den = 1 → Micro t := fun t ht => ⟨(1000 * t).num, (Rat.den_eq_one_iff _).1 ht |>.symm⟩
  rcases ht with rfl | ht
  · exact hd _ (of_decide_eq_true this.1)
  · rw [← ht] at this
    exact hd _ (of_decide_eq_true this.2)

/-- The rotation with auto-attacks, and without the dots after the last skill.  It meets all hypotheses, and
has three auto-attacks, one of which has to wait for the end of the downtime. -/
theorem Ex.withAutos : ∃ rb rb' a,
    [Ex.next "Haste", Ex.next "Spell", Ex.at_ (1 / 2) "Venom", Ex.at_ 8 "Hit"].foldlM BuilderOp.run
      (Ex.start (some (1 / 2)) true true (some 0) (.tuple [⟨6, 7, none⟩])) = .ok rb ∧
    ([Ex.next "Haste", Ex.next "Spell", Ex.at_ (1 / 2) "Venom", Ex.at_ 8 "Hit"].map (BuilderOp.later 2500)).foldlM
      BuilderOp.run (Ex.start ((some (1 / 2 : ℚ)).map (· + ((2500 : ℤ) : ℚ) / 1000)) true true
        ((some (0 : ℚ)).map (· + ((2500 : ℤ) : ℚ))) (laterDowntime 2500 (.tuple [⟨6, 7, none⟩]))) = .ok rb' ∧
    (∀ op ∈ [Ex.next "Haste", Ex.next "Spell", Ex.at_ (1 / 2) "Venom", Ex.at_ 8 "Hit"], op.Milli) ∧
    (∀ op ∈ [Ex.next "Haste", Ex.next "Spell", Ex.at_ (1 / 2) "Venom", Ex.at_ 8 "Hit"], op.isTiming = false) ∧
    (∃ n : ℤ, 1000 * (1 / 2 : ℚ) = n) ∧
    (∀ r, afterPresses rb = .ok r →
      ∀ t, r.events.getLastEventTime = some t → t ≠ 0 ∧ t + ((2500 : ℤ) : ℚ) ≠ 0) ∧
    (∀ r, beforeDowntime 20 rb = .ok r → ∀ e ∈ r.events.q,
      ∀ t, t = e.primary ∨ some t = e.secondary → Micro t) ∧
    rb.getSkillTiming 20 = .ok a ∧
    Ex.look a = ([(0, "Haste"), (500, "Venom"), (650, "Spell"), (8000, "Hit")],
      [(0, 0, "Haste"), (500, 1200, "Venom"), (1200, 1700, "Auto"), (1610, 2410, "Spell"),
       (500, 3500, "Poison"), (3780, 4280, "Auto"), (7000, 7500, "Auto"), (8000, 8500, "Hit")]) := by
  obtain ⟨rb, h1, h⟩ := Ex.ok_of (show Ex.okAnd ([Ex.next "Haste", Ex.next "Spell", Ex.at_ (1 / 2) "Venom", Ex.at_ 8 "Hit"].foldlM BuilderOp.run
      (Ex.start (some (1 / 2)) true true (some 0) (.tuple [⟨6, 7, none⟩]))) (fun rb =>
      Ex.okAnd (rb.getSkillTiming 20) (fun a =>
      Ex.okAnd (([Ex.next "Haste", Ex.next "Spell", Ex.at_ (1 / 2) "Venom", Ex.at_ 8 "Hit"].map
        (BuilderOp.later 2500)).foldlM BuilderOp.run (Ex.start ((some (1 / 2 : ℚ)).map (· + ((2500 : ℤ) : ℚ) / 1000)) true true
        ((some (0 : ℚ)).map (· + ((2500 : ℤ) : ℚ))) (laterDowntime 2500 (.tuple [⟨6, 7, none⟩]))))
        (fun _ => Ex.okAnd (afterPresses rb) (fun r => Ex.okAnd (beforeDowntime 20 rb) (fun r' =>
          decide (Ex.look a = ([(0, "Haste"), (500, "Venom"), (650, "Spell"), (8000, "Hit")],
      [(0, 0, "Haste"), (500, 1200, "Venom"), (1200, 1700, "Auto"), (1610, 2410, "Spell"),
       (500, 3500, "Poison"), (3780, 4280, "Auto"), (7000, 7500, "Auto"), (8000, 8500, "Hit")]) ∧ r.events.getLastEventTime = some 8500 ∧ Ex.micro r' = true)))))) = true by
      decide +kernel)
  obtain ⟨a, h2, h⟩ := Ex.ok_of h
  obtain ⟨rb', h3, h⟩ := Ex.ok_of h
  obtain ⟨r, h4, h⟩ := Ex.ok_of h
  obtain ⟨r', h5, h⟩ := Ex.ok_of h
  obtain ⟨h6, h7, h8⟩ := of_decide_eq_true h
  refine ⟨rb, rb', a, h1, h3, ?_, by decide, ⟨500, by norm_num⟩, ?_, ?_, h2, h6⟩
  · intro op hop
    simp only [List.mem_cons, List.not_mem_nil, or_false] at hop
    rcases hop with rfl | rfl | rfl | rfl
    · trivial
    · trivial
    · exact ⟨500, by norm_num⟩
    · exact ⟨8000, by norm_num⟩
  · intro r0 hr0 t ht
    rw [h4] at hr0
    cases hr0
    rw [h7] at ht
    cases ht
    norm_num
  · intro r0 hr0
    rw [h5] at hr0
    cases hr0
    exact Ex.micro_of h8

/-- The theorem applies to it. -/
example : ∃ rb rb' a b,
    [Ex.next "Haste", Ex.next "Spell", Ex.at_ (1 / 2) "Venom", Ex.at_ 8 "Hit"].foldlM BuilderOp.run
      (Ex.start (some (1 / 2)) true true (some 0) (.tuple [⟨6, 7, none⟩])) = .ok rb ∧
    ([Ex.next "Haste", Ex.next "Spell", Ex.at_ (1 / 2) "Venom", Ex.at_ 8 "Hit"].map (BuilderOp.later 2500)).foldlM
      BuilderOp.run (Ex.start ((some (1 / 2 : ℚ)).map (· + ((2500 : ℤ) : ℚ) / 1000)) true true
        ((some (0 : ℚ)).map (· + ((2500 : ℤ) : ℚ))) (laterDowntime 2500 (.tuple [⟨6, 7, none⟩]))) = .ok rb' ∧
    rb.getSkillTiming 20 = .ok a ∧ rb'.getSkillTiming 20 = .ok b ∧ b.events = laterTimeline (2500 : ℤ) a.events ∧
    Ex.look a = ([(0, "Haste"), (500, "Venom"), (650, "Spell"), (8000, "Hit")],
      [(0, 0, "Haste"), (500, 1200, "Venom"), (1200, 1700, "Auto"), (1610, 2410, "Spell"),
       (500, 3500, "Poison"), (3780, 4280, "Auto"), (7000, 7500, "Auto"), (8000, 8500, "Hit")]) := by
  obtain ⟨rb, rb', a, h1, h2, h3, h4, h5, h6, h7, h8, h9⟩ := Ex.withAutos
  obtain ⟨b, g1, g2, -⟩ := C103_exact_partial (k := 2500) (start := some 0) (snapDots := some (1 / 2))
    (downtime := .tuple [⟨6, 7, none⟩]) (stats := Ex.stats) (lib := Ex.lib) rfl rfl h3 (.inl (by simp)) h4
    (by rintro s hs; cases hs; exact h5) h1 h2 Ex.lasting (fun _ => .inl (by simp)) (fun _ => h6)
    (fun r hr e he t ht => .inl (h7 r hr e he t ht)) h8 (.inl (by simp))
  exact ⟨rb, rb', a, b, h1, h2, h8, g1, (g2 (by simp)).1, h9⟩

/-- Without a fight start the first hit is at time 0, wherever the skills were put. -/
example : ∃ rb rb' a b,
    [Ex.at_ 1 "Hit", Ex.at_ 2 "Venom"].foldlM BuilderOp.run Ex.start = .ok rb ∧
    ([Ex.at_ 1 "Hit", Ex.at_ 2 "Venom"].map (BuilderOp.later (-7300))).foldlM BuilderOp.run Ex.start =
      .ok rb' ∧
    rb.getSkillTiming 0 = .ok a ∧ rb'.getSkillTiming 0 = .ok b ∧
    (∃ e ∈ a.events.q, e.skill.name = "Hit" ∧ appliedAt e = 0) ∧ Ex.look b = Ex.look a ∧
    Ex.look a = ([(-500, "Hit"), (500, "Venom")],
      [(-500, 0, "Hit"), (500, 1200, "Venom"), (500, 1200, "Poison"), (500, 4200, "Poison"),
       (500, 7200, "Poison")]) := by
  obtain ⟨rb, h1, h⟩ := Ex.ok_of (show Ex.okAnd ([Ex.at_ 1 "Hit", Ex.at_ 2 "Venom"].foldlM
      BuilderOp.run Ex.start) (fun rb => Ex.okAnd (rb.getSkillTiming 0) (fun a =>
      Ex.okAnd (([Ex.at_ 1 "Hit", Ex.at_ 2 "Venom"].map (BuilderOp.later (-7300))).foldlM
        BuilderOp.run Ex.start) (fun rb' => Ex.okAnd (rb'.getSkillTiming 0) (fun b => decide (
        (∃ e ∈ a.events.q, e.skill.name = "Hit" ∧ appliedAt e = 0) ∧ Ex.look b = Ex.look a ∧
        Ex.look a = ([(-500, "Hit"), (500, "Venom")],
          [(-500, 0, "Hit"), (500, 1200, "Venom"), (500, 1200, "Poison"), (500, 4200, "Poison"),
           (500, 7200, "Poison")])))))) = true by decide +kernel)
  obtain ⟨a, h2, h⟩ := Ex.ok_of h
  obtain ⟨rb', h3, h⟩ := Ex.ok_of h
  obtain ⟨b, h4, h⟩ := Ex.ok_of h
  obtain ⟨h5, h6, h7⟩ := of_decide_eq_true h
  exact ⟨rb, rb', a, b, h1, h3, h2, h4, h5, h6, h7⟩

/-- C103, refutation.  If trailing dots are ignored, a rotation whose last event is at time 0 does get
all its ticks, unlike the same rotation one second later: `if last_event_time` is also false for 0. -/
theorem C103_trailing_refuted : ∃ rb rb' a b,
    [BuilderOp.addNext "Curse" none none 1 none].foldlM BuilderOp.run
      (Ex.start none false true (some 0)) = .ok rb ∧
    ([BuilderOp.addNext "Curse" none none 1 none].map (BuilderOp.later 1000)).foldlM BuilderOp.run
      (Ex.start none false true (some 1000)) = .ok rb' ∧
    rb.getSkillTiming 0 = .ok a ∧ rb'.getSkillTiming 0 = .ok b ∧
    a.events.q.length = 4 ∧ b.events.q.length = 2 ∧
    ¬ Changed (fun e e' => MovedLater 1000 e e') a.events.q b.events.q := by
  obtain ⟨rb, h1, h⟩ := Ex.ok_of (show Ex.okAnd ([BuilderOp.addNext "Curse" none none 1 none].foldlM
      BuilderOp.run (Ex.start none false true (some 0))) (fun rb => Ex.okAnd (rb.getSkillTiming 0) (fun a =>
      Ex.okAnd (([BuilderOp.addNext "Curse" none none 1 none].map (BuilderOp.later 1000)).foldlM
        BuilderOp.run (Ex.start none false true (some 1000))) (fun rb' =>
      Ex.okAnd (rb'.getSkillTiming 0) (fun b => decide (
        a.events.q.length = 4 ∧ b.events.q.length = 2))))) = true by decide +kernel)
  obtain ⟨a, h2, h⟩ := Ex.ok_of h
  obtain ⟨rb', h3, h⟩ := Ex.ok_of h
  obtain ⟨b, h4, h⟩ := Ex.ok_of h
  obtain ⟨h5, h6⟩ := of_decide_eq_true h
  refine ⟨rb, rb', a, b, h1, h3, h2, h4, h5, h6, ?_⟩
  rintro ⟨n, g1, g2⟩
  have := g1.length_eq.trans g2.length_eq
  omega

/-- C103, refutation.  With downtime and without a fight start, the auto-attacks depend on where the timed
skills are put: they are placed around the downtime windows before the first damage is put at time 0, and
removed in these windows after that.  Here, 1.5 seconds make a difference of two auto-attacks. -/
theorem C103_autos_refuted : ∃ rb rb' a b,
    [Ex.at_ 1 "Hit", Ex.at_ 9 "Hit"].foldlM BuilderOp.run
      (Ex.start none true false none (.tuple [⟨4, 6, none⟩])) = .ok rb ∧
    ([Ex.at_ 1 "Hit", Ex.at_ 9 "Hit"].map (BuilderOp.later (-1500))).foldlM BuilderOp.run
      (Ex.start none true false none (.tuple [⟨4, 6, none⟩])) = .ok rb' ∧
    rb.getSkillTiming 20 = .ok a ∧ rb'.getSkillTiming 20 = .ok b ∧
    Ex.look a = ([(-500, "Hit"), (7500, "Hit")],
      [(-500, 0, "Hit"), (0, 500, "Auto"), (7500, 8000, "Hit")]) ∧
    Ex.look b = ([(-500, "Hit"), (7500, "Hit")],
      [(-500, 0, "Hit"), (0, 500, "Auto"), (3440, 3940, "Auto"), (6880, 7380, "Auto"), (7500, 8000, "Hit")]) := by
  obtain ⟨rb, h1, h⟩ := Ex.ok_of (show Ex.okAnd ([Ex.at_ 1 "Hit", Ex.at_ 9 "Hit"].foldlM
      BuilderOp.run (Ex.start none true false none (.tuple [⟨4, 6, none⟩]))) (fun rb =>
      Ex.okAnd (rb.getSkillTiming 20) (fun a =>
      Ex.okAnd (([Ex.at_ 1 "Hit", Ex.at_ 9 "Hit"].map (BuilderOp.later (-1500))).foldlM
        BuilderOp.run (Ex.start none true false none (.tuple [⟨4, 6, none⟩]))) (fun rb' =>
      Ex.okAnd (rb'.getSkillTiming 20) (fun b => decide (
        Ex.look a = ([(-500, "Hit"), (7500, "Hit")],
          [(-500, 0, "Hit"), (0, 500, "Auto"), (7500, 8000, "Hit")]) ∧
        Ex.look b = ([(-500, "Hit"), (7500, "Hit")],
          [(-500, 0, "Hit"), (0, 500, "Auto"), (3440, 3940, "Auto"), (6880, 7380, "Auto"),
           (7500, 8000, "Hit")])))))) = true by decide +kernel)
  obtain ⟨a, h2, h⟩ := Ex.ok_of h
  obtain ⟨rb', h3, h⟩ := Ex.ok_of h
  obtain ⟨b, h4, h⟩ := Ex.ok_of h
  obtain ⟨h5, h6⟩ := of_decide_eq_true h
  exact ⟨rb, rb', a, b, h1, h3, h2, h4, h5, h6⟩

end Ama
