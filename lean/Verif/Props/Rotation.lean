import Verif.Lemmas.BuilderTimes
import Verif.Lemmas.BuilderPresses
import Verif.Lemmas.BuilderAdd
import Verif.Examples.Rotation

/-!
# Properties of rotations: snapshots, presses and targets (C26 - C29, C55)
-/

namespace Ama

open Spec RotationBuilder

variable {fuel : ℕ} {rb rb' : RotationBuilder}

/-! ## C26: snapshots never come after applications -/

/-- C26 when dot ticks are not aligned with server ticks: every event of the timeline snapshots no
later than it is applied, and an event with equal times carries a single time. -/
theorem C26_snapshot_first (hb : Built rb) (hl : NonnegDelays rb.lib) (hs : rb.snapDots = none)
    (h : rb.getSkillTiming fuel = .ok rb') :
    ∀ e ∈ rb'.events.q, e.primary ≤ appliedAt e ∧ e.secondary ≠ some e.primary := by
  obtain ⟨r⟩ := run_of_ok h
  obtain ⟨δ, hδ⟩ := r.event
  obtain ⟨_, _, _, _, _, hg, _⟩ := r.spec
  intro e he
  refine ⟨?_, hg.2 e he⟩
  obtain ⟨a, ha, e0, h1, h2⟩ := hδ e he
  have := (adds_le (built_inv hb) hl r ha).2.1 hs
  rw [derived_appliedAt h2, h2.primary, becomes_appliedAt' h1, h1.2.1]
  linarith

/-- A rotation with a dot, a cast, an ability on two targets and auto-attacks meets the hypotheses. -/
example : ∃ rb rb', Built rb ∧ NonnegDelays rb.lib ∧ rb.getSkillTiming 100 = .ok rb' ∧
    rb.snapDots = none ∧ rb'.events.q.length = 9 ∧
    ∃ e ∈ rb'.events.q, e.primary < appliedAt e :=
  Ex.run_of (autos := true) [Ex.next "Venom", Ex.at_ 1 "Spell", Ex.at_ 4 "Blast" "A, B"] 100
    (fun rb rb' => rb.snapDots = none ∧ rb'.events.q.length = 9 ∧
      ∃ e ∈ rb'.events.q, e.primary < appliedAt e) (h := by decide +kernel)

/-- C26 with aligned ticks.  Missing: the exact bound.  A tick at a fractional time is rounded down to
a whole millisecond, which can put it less than one millisecond before the snapshot (see
`C26_aligned_refuted`). -/
theorem C26_snapshot_first_partial (hb : Built rb) (hl : NonnegDelays rb.lib)
    (h : rb.getSkillTiming fuel = .ok rb') :
    ∀ e ∈ rb'.events.q, e.primary < appliedAt e + 1 ∧ e.secondary ≠ some e.primary := by
  obtain ⟨r⟩ := run_of_ok h
  obtain ⟨δ, hδ⟩ := r.event
  obtain ⟨_, _, _, _, _, hg, _⟩ := r.spec
  intro e he
  refine ⟨?_, hg.2 e he⟩
  obtain ⟨a, ha, e0, h1, h2⟩ := hδ e he
  have := (adds_le (built_inv hb) hl r ha).1
  rw [derived_appliedAt h2, h2.primary, becomes_appliedAt' h1, h1.2.1]
  linarith

/-- C26 is false with aligned ticks and fractional milliseconds: a fight starting at half a
millisecond with server ticks at 0.7 ms has a tick at time 0. -/
theorem C26_aligned_refuted :
    ∃ rb rb', Built rb ∧ NonnegDelays rb.lib ∧ rb.getSkillTiming 0 = .ok rb' ∧
      ∃ e ∈ rb'.events.q, appliedAt e < e.primary :=
  Ex.run_of (snapDots := some (7 / 10000)) (fightStart := some (1 / 2))
    [Ex.next "Curse", Ex.at_ 3 "Curse"] 0
    (fun _ rb' => ∃ e ∈ rb'.events.q, appliedAt e < e.primary) (h := by decide +kernel)

/-! ## C27: GCD and animation-lock spacing -/

/-- C27 (exact form): the presses of the sequence happen each at the earliest time allowed by the
previous press and, for GCDs, by the recast of the last GCD; and these are the reported times, all
moved by the same amount. -/
theorem C27_earliest (hb : Built rb) (h : rb.getSkillTiming fuel = .ok rb') :
    ∃ δ slots rest, List.Forall₂ (SlotOf rb.stats) rb.qSequence slots ∧
      Earliest (rb.fightStart.getD 0) none slots ∧
      rb'.presses.Perm (
        (List.zipWith (fun (p : SeqPress) (s : SeqSlot) =>
          reported rb.stats (s.t - δ) p.skill p.modifier p.jobClass) rb.qSequence slots) ++ rest) ∧
      (rb.fightStart ≠ none → δ = 0) := by
  obtain ⟨r⟩ := run_of_ok h
  obtain ⟨δ, slots, order, h1, h2, _, _, h5, h6⟩ := run_presses (built_inv hb) r
  refine ⟨δ, slots, (order.map (fun p => reported rb.stats p.t p.skill p.modifier p.jobClass)).map
    (earlier δ), h1, h2, ?_, h6⟩
  rw [h5]
  refine (sortBy_perm _ _).trans ?_
  rw [List.map_append, List.map_zipWith]
  exact .refl _

/-- C27: in the sequence every press waits for the animation lock of the one before; a GCD waits for
the recast of the GCD before it, which for standard GCDs is at least 1.5 s.  The times are the
reported ones up to a common shift `δ`. -/
theorem C27_spacing (hb : Built rb) (h : rb.getSkillTiming fuel = .ok rb') :
    ∃ δ slots rest, List.Forall₂ (SlotOf rb.stats) rb.qSequence slots ∧
      rb'.presses.Perm (
        (List.zipWith (fun (p : SeqPress) (s : SeqSlot) =>
          reported rb.stats (s.t - δ) p.skill p.modifier p.jobClass) rb.qSequence slots) ++ rest) ∧
      (∀ l₁ a b l₂, slots = l₁ ++ a :: b :: l₂ → a.t + a.timing.animationLock ≤ b.t) ∧
      (∀ l₁ a l₂ b l₃, slots = l₁ ++ a :: (l₂ ++ b :: l₃) → a.Gcd → b.Gcd → (∀ s ∈ l₂, ¬ s.Gcd) →
        a.t + a.recast ≤ b.t ∧ (a.timing.gcdBaseRecastTime = 2500 → a.t + 1500 ≤ b.t)) := by
  obtain ⟨δ, slots, rest, h1, h2, h3, _⟩ := C27_earliest hb h
  refine ⟨δ, slots, rest, h1, h3, ?_, ?_⟩
  · rintro l₁ a b l₂ rfl
    obtain ⟨p, hp⟩ := forall₂_split h1
    obtain ⟨free, ready, h4⟩ := earliest_suffix h2
    have := h4.2.1.1.1
    have := busy_ge hp
    linarith
  · rintro l₁ a l₂ b l₃ rfl ha hb' hl
    obtain ⟨p, hp⟩ := forall₂_split h1
    obtain ⟨free, ready, h4⟩ := earliest_suffix h2
    have h5 := h4.2
    rw [if_pos ha] at h5
    have h6 := earliest_ready h5 hl hb'
    refine ⟨h6, fun hs => ?_⟩
    have := recast_ge (hp.2.2.2.2 ha) hs
    linarith

/-- Three GCDs with an ability in between and a cast, under haste. -/
example : ∃ rb rb', Built rb ∧ NonnegDelays rb.lib ∧ rb.getSkillTiming 0 = .ok rb' ∧
    rb'.presses.map (·.t) = [-1150, -500, 150, 1330, 3160] :=
  Ex.run_of [Ex.next "Haste", Ex.next "Hit", Ex.next "Blast", Ex.next "Hit", Ex.next "Spell"] 0
    (fun _ rb' => rb'.presses.map (·.t) = [-1150, -500, 150, 1330, 3160]) (h := by decide +kernel)

/-! ## C28: timed presses are processed in time order, once each -/

/-- C28: processing the timed queue performs the step for every entry exactly once, in an order of
non-decreasing times. -/
theorem C28_once_in_order (h : rb.processQTimed = .ok rb') :
    ∃ (order : List TimedPress) (s s' : LoopState), order.Perm rb.qTimed ∧
      order.Pairwise (fun a b => a.t ≤ b.t) ∧ s.rb = rb ∧ s'.rb = rb' ∧
      order.foldlM timedStep s = .ok s' := by
  unfold processQTimed at h
  obtain ⟨tc, _, h⟩ := Py.bind_eq_ok.1 h
  obtain ⟨s', h2, h⟩ := Py.bind_eq_ok.1 h
  cases h
  obtain ⟨order, g1, g2, g3⟩ := timedLoop_spec _ _ _ _ (Heapq.isHeap_of_sorted (sortBy_sorted _ _)) h2
  exact ⟨order, _, s', g1.trans (sortBy_perm _ _), g2, rfl, rfl, g3⟩

example : ∃ rb', RotationBuilder.processQTimed
    { Ex.start with qTimed := [Ex.timed 5000 Ex.hit, Ex.timed 0 Ex.spell, Ex.timed 5000 Ex.venom] } =
      .ok rb' ∧ decide (rb'.presses.map (·.name) = ["Spell", "Hit", "Venom"]) = true :=
  Ex.ok_of (by decide +kernel)

/-- C28: without auto-attacks, the order of calls of `add` with different times does not matter: the
permuted calls also succeed and lead to the same timeline and presses (or the same exception). -/
theorem C28_order_irrelevant_partial (cs cs' : List AddCall) (hp : cs.Perm cs') (rb₁ : RotationBuilder)
    (h : cs.foldlM AddCall.run rb = .ok rb₁) (ha : rb.enableAutos = false)
    (hd : (rb₁.qTimed.map (·.t)).Nodup) :
    ∃ rb₂, cs'.foldlM AddCall.run rb = .ok rb₂ ∧
      observed (rb₂.getSkillTiming fuel) = observed (rb₁.getSkillTiming fuel) := by
  obtain ⟨rb₂, h1, q, h2, rfl⟩ := adds_perm hp rb rb₁ h
  refine ⟨_, h1, observed_perm h2 hd ?_⟩
  refine Py.foldlM_inv (P := fun r => r.enableAutos = false) ha ?_ h
  intro r c r' _ hr hc
  obtain ⟨skill, _, rfl⟩ := (run_add_ok _ _ _).1 hc
  exact hr

example : ∃ rb₁, ([⟨5, "Hit", none, none, none⟩, ⟨0, "Spell", none, none, some "A, B"⟩] :
    List AddCall).foldlM AddCall.run Ex.start = .ok rb₁ ∧
      decide ((rb₁.qTimed.map (·.t)).Nodup) = true := Ex.ok_of (by decide +kernel)

/-- C28 is false for the timeline as a whole when auto-attacks are enabled: the periods without
auto-attacks are computed from the queue in the order of the `add` calls, so the same presses added
in another order give another auto-attack. -/
theorem C28_autos_refuted :
    ∃ (cs cs' : List AddCall) (rb rb₁ rb₂ : RotationBuilder), Built rb ∧ cs.Perm cs' ∧
      cs.foldlM AddCall.run rb = .ok rb₁ ∧ cs'.foldlM AddCall.run rb = .ok rb₂ ∧
      (rb₁.qTimed.map (·.t)).Nodup ∧
      ∃ x₁ x₂, observed (rb₁.getSkillTiming 10) = .ok x₁ ∧
        observed (rb₂.getSkillTiming 10) = .ok x₂ ∧
        x₁.1.q.map appliedAt ≠ x₂.1.q.map appliedAt := by
  obtain ⟨rb₁, h1, h2⟩ := Ex.ok_of
    (x := [Ex.call 0 "Hit", Ex.call 1 "Haste", Ex.call (26 / 10) "Spell", Ex.call 5 "Hit"].foldlM
      AddCall.run (Ex.start (autos := true)))
    (P := fun rb₁ : RotationBuilder => decide ((rb₁.qTimed.map (fun p : TimedPress => p.t)).Nodup) &&
      Ex.okAnd (observed (rb₁.getSkillTiming 10)) (fun x =>
        decide (x.1.q.map appliedAt = [0, 500, 500, 3860, 4060, 5000]))) (by decide +kernel)
  obtain ⟨rb₂, h3, h4⟩ := Ex.ok_of
    (x := [Ex.call (26 / 10) "Spell", Ex.call 0 "Hit", Ex.call 1 "Haste", Ex.call 5 "Hit"].foldlM
      AddCall.run (Ex.start (autos := true)))
    (P := fun rb₂ : RotationBuilder => Ex.okAnd (observed (rb₂.getSkillTiming 10)) (fun x =>
        decide (x.1.q.map appliedAt = [0, 500, 500, 3860, 4550, 5000]))) (by decide +kernel)
  rw [Bool.and_eq_true] at h2
  obtain ⟨x₁, k1, k2⟩ := Ex.ok_of h2.2
  obtain ⟨x₂, k3, k4⟩ := Ex.ok_of h4
  refine ⟨_, _, _, rb₁, rb₂, Ex.built_of [] rfl, ?_, h1, h3,
    of_decide_eq_true h2.1, x₁, x₂, k1, k3, ?_⟩
  · exact List.perm_middle (l₁ := [_, _]) (l₂ := [_])
  · rw [of_decide_eq_true k2, of_decide_eq_true k4]
    decide +kernel

/-! ## C29: presses are reported completely and sorted -/

/-- C29: `get_button_press_timing` is sorted by time and has exactly one entry for each queued skill:
those of the sequence at the times of C27, the timed ones at their times, all moved by the same
amount. -/
theorem C29_presses (hb : Built rb) (h : rb.getSkillTiming fuel = .ok rb') :
    rb'.getButtonPressTiming.Pairwise (fun a b => a.t ≤ b.t) ∧
    rb'.getButtonPressTiming.length = rb.qSequence.length + rb.qTimed.length ∧
    ∃ δ slots, List.Forall₂ (SlotOf rb.stats) rb.qSequence slots ∧
      Earliest (rb.fightStart.getD 0) none slots ∧
      rb'.getButtonPressTiming.Perm (
        List.zipWith (fun (p : SeqPress) (s : SeqSlot) =>
          reported rb.stats (s.t - δ) p.skill p.modifier p.jobClass) rb.qSequence slots ++
        rb.qTimed.map (fun p => reported rb.stats (p.t - δ) p.skill p.modifier p.jobClass)) := by
  obtain ⟨r⟩ := run_of_ok h
  obtain ⟨δ, slots, order, h1, h2, h3, _, h5, _⟩ := run_presses (built_inv hb) r
  have hperm : rb'.getButtonPressTiming.Perm (
        List.zipWith (fun (p : SeqPress) (s : SeqSlot) =>
          reported rb.stats (s.t - δ) p.skill p.modifier p.jobClass) rb.qSequence slots ++
        rb.qTimed.map (fun p => reported rb.stats (p.t - δ) p.skill p.modifier p.jobClass)) := by
    unfold getButtonPressTiming
    refine (sortBy_perm _ _).trans ?_
    rw [h5]
    refine (sortBy_perm _ _).trans ?_
    rw [List.map_append, List.map_zipWith]
    refine List.Perm.append_left _ ?_
    rw [List.map_map]
    exact (h3.map _)
  refine ⟨sortBy_sorted _ _, ?_, δ, slots, h1, h2, hperm⟩
  rw [hperm.length_eq, List.length_append, List.length_zipWith, List.length_map, h1.length_eq,
    Nat.min_self]

example : ∃ rb rb', Built rb ∧ NonnegDelays rb.lib ∧ rb.getSkillTiming 0 = .ok rb' ∧
    rb'.getButtonPressTiming.map (fun p => (p.t, p.name)) =
      [(-500, "Hit"), (500, "Blast"), (1940, "Hit")] :=
  Ex.run_of [Ex.at_ 1 "Blast" "A, B", Ex.next "Hit" 2] 0
    (fun _ rb' => rb'.getButtonPressTiming.map (fun p => (p.t, p.name)) =
      [(-500, "Hit"), (500, "Blast"), (1940, "Hit")]) (h := by decide +kernel)

/-! ## C55: default modifiers and targets -/

/-- A queued entry follows from the arguments of the call: the given modifier, or no condition for
the player's own job and the off-class condition of the skill for other jobs; the given targets (a
list of names separated by commas), or the default target. -/
structure Queued (rb : RotationBuilder) (skill : Skill) (m : Option SkillModifier)
    (job targets : Option String) (m' : SkillModifier) (job' : String) (targets' : List String) :
    Prop where
  jobOwn : job = none → job' = rb.stats.jobClass
  jobGiven : ∀ j, job = some j → job' = j
  modifierGiven : ∀ x, m = some x → m' = x
  modifierOwn : m = none → job' = rb.stats.jobClass → m' = {}
  modifierOther : m = none → job' ≠ rb.stats.jobClass →
    m' = { withCondition := Utils.canonicalizeCondition skill.offClassDefaultCondition }
  targetsGiven : ∀ l, l ≠ [] → (∀ c ∈ l, CleanName c) → targets = some (strJoin ", " l) →
    targets' = l
  targetsDefault : CleanName rb.defaultTarget → targets = none → targets' = [rb.defaultTarget]

theorem queued (rb : RotationBuilder) (skill : Skill) (m : Option SkillModifier)
    (job targets : Option String) :
    Queued rb skill m job targets
      (m.getD (rb.getDefaultSkillModifier skill (job.getD rb.stats.jobClass)))
      (job.getD rb.stats.jobClass) (splitTargets (targets.getD rb.defaultTarget)) where
  jobOwn := by rintro rfl; rfl
  jobGiven := by rintro j rfl; rfl
  modifierGiven := by rintro x rfl; rfl
  modifierOwn := by
    rintro rfl h
    unfold getDefaultSkillModifier
    rw [if_neg (not_not.2 h)]
    rfl
  modifierOther := by
    rintro rfl h
    unfold getDefaultSkillModifier
    rw [if_pos h]
    rfl
  targetsGiven := by
    rintro l h1 h2 rfl
    exact splitTargets_join l h1 h2
  targetsDefault := by
    rintro h rfl
    have := splitTargets_join [rb.defaultTarget] (by simp) (by simpa using h)
    simpa [strJoin, joinWith] using this

/-- C55 for `add_next`. -/
theorem C55_add_next {name : String} {m : Option SkillModifier} {job targets : Option String} {n : ℕ}
    (h : rb.addNext name m job n targets = .ok rb') :
    ∃ p : SeqPress, rb'.qSequence = rb.qSequence ++ List.replicate n p ∧ rb'.qTimed = rb.qTimed ∧
      rb.lib.getSkill name p.jobClass = .ok p.skill ∧
      Queued rb p.skill m job targets p.modifier p.jobClass p.targets := by
  obtain ⟨skill, h1, rfl⟩ := addNext_ok h
  exact ⟨_, rfl, rfl, h1, queued _ _ _ _ _⟩

/-- C55 for `add`; the time is given in seconds and kept in whole milliseconds. -/
theorem C55_add {t : ℚ} {name : String} {m : Option SkillModifier} {job targets : Option String}
    (h : rb.add t name m job targets = .ok rb') :
    ∃ p : TimedPress, rb'.qTimed = rb.qTimed ++ [p] ∧ rb'.qSequence = rb.qSequence ∧
      p.t = pyInt (1000 * t) ∧ rb.lib.getSkill name p.jobClass = .ok p.skill ∧
      Queued rb p.skill m job targets p.modifier p.jobClass p.targets := by
  obtain ⟨skill, h1, rfl⟩ := add_ok h
  exact ⟨_, rfl, rfl, rfl, h1, queued _ _ _ _ _⟩

example : ∃ rb', RotationBuilder.add Ex.start (3 / 2) "Hit" none none (some "Boss, Add 1") = .ok rb' ∧
    decide (rb'.qTimed = [Ex.timed 1500 Ex.hit ["Boss", "Add 1"]]) = true :=
  Ex.ok_of (by decide +kernel)

/-- C55 (targets): the first call of `get_skill_timing` makes windows given as one tuple apply to
every target named so far.  Missing: targets named after that call (see `C55_late_target_refuted`). -/
theorem C55_known_targets_partial {ws : List Window} (hb : Built rb) (hd : rb.downtime = .tuple ws)
    (h : rb.getSkillTiming fuel = .ok rb') :
    (∀ p ∈ rb.qSequence, ∀ t ∈ p.targets, downtimeOf rb' t = ws) ∧
    (∀ p ∈ rb.qTimed, ∀ t ∈ p.targets, downtimeOf rb' t = ws) := by
  obtain ⟨_, _, _, _, _, h6, _⟩ := timing_fields h
  have hd' : rb'.downtime = .known rb.allTargets ws := by
    rw [h6]
    unfold start processDowntimeWindows
    simp only [hd]
  obtain ⟨k1, k2⟩ := built_known hb
  unfold downtimeOf
  rw [hd']
  exact ⟨fun p hp t ht => if_pos (k1 p hp t ht), fun p hp t ht => if_pos (k2 p hp t ht)⟩

example : ∃ rb rb', Built rb ∧ NonnegDelays rb.lib ∧ rb.getSkillTiming 0 = .ok rb' ∧
    rb.downtime = .tuple [⟨1000, 2000, none⟩] ∧
    rb'.events.q.map (fun e => (appliedAt e, e.targets)) = [(0, ["A"]), (3000, ["A", "B"])] :=
  Ex.run_of [Ex.at_ 0 "Hit" "A", Ex.at_ (3 / 2) "Hit" "A, B", Ex.at_ 3 "Hit" "A, B"] 0
    (fun rb rb' => rb.downtime = .tuple [⟨1000, 2000, none⟩] ∧
      rb'.events.q.map (fun e => (appliedAt e, e.targets)) = [(0, ["A"]), (3000, ["A", "B"])])
    (downtime := .tuple [⟨1, 2, none⟩]) (h := by decide +kernel)

/-- C55 is false for targets named after a call of `get_skill_timing`: downtime windows that were
given for all targets do not apply to them.  Here the whole fight is downtime, the hit on `A` is
removed and the hit on `B` is not. -/
theorem C55_late_target_refuted :
    ∃ rb₁ rb₂ rb₃ rb₄, Built rb₁ ∧ rb₁.downtime = .tuple [⟨-1000000, 1000000, none⟩] ∧
      rb₁.getSkillTiming 0 = .ok rb₂ ∧ rb₂.add 1 "Hit" none none (some "B") = .ok rb₃ ∧
      rb₃.getSkillTiming 0 = .ok rb₄ ∧ downtimeOf rb₄ "B" = [] ∧
      rb₄.events.q.map (·.targets) = [["B"]] := by
  obtain ⟨rb₁, h1, h2⟩ := Ex.ok_of
    (x := Ex.calls (Ex.start (downtime := .tuple [⟨-1000, 1000, none⟩])) [Ex.at_ 0 "Hit" "A"])
    (P := fun rb₁ : RotationBuilder => decide (rb₁.downtime = .tuple [⟨-1000000, 1000000, none⟩]) &&
      Ex.okAnd (rb₁.getSkillTiming 0) (fun rb₂ =>
        Ex.okAnd (rb₂.add 1 "Hit" none none (some "B")) (fun rb₃ =>
          Ex.okAnd (rb₃.getSkillTiming 0) (fun rb₄ => decide (downtimeOf rb₄ "B" = [] ∧
            rb₄.events.q.map (fun e : Event => e.targets) = [["B"]]))))) (by decide +kernel)
  rw [Bool.and_eq_true] at h2
  obtain ⟨rb₂, k1, k2⟩ := Ex.ok_of h2.2
  obtain ⟨rb₃, k3, k4⟩ := Ex.ok_of k2
  obtain ⟨rb₄, k5, k6⟩ := Ex.ok_of k4
  obtain ⟨k7, k8⟩ := of_decide_eq_true k6
  exact ⟨rb₁, rb₂, rb₃, rb₄, Ex.built_of _ h1, of_decide_eq_true h2.1, k1, k3, k5, k7, k8⟩

end Ama
