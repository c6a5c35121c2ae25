import Verif.Lemmas.Replay
import Verif.Examples.Rotation
import Verif.Props.Safe

/-!
# Playing a sequence again at the times worked out for it (C110)
-/

namespace Ama

open Spec RotationBuilder

/-- C110.  A rotation without auto-attacks is entered as a sequence.  The same skills are entered with `add`, at
times that differ from those reported for the sequence by one amount, so that the first is at the start of the fight
(0, if the start is to be found).  Then this goes through, and gives the same timeline and the same presses.

Partial since auto-attacks must be disabled (`C110_autos_refuted`), and no two presses
may be at the same time (`C110_ties_refuted`). -/
theorem C110_replay_partial {stats : Stats} {lib : SkillLibrary} {snapDots fightStart : Option ℚ}
    {trailing : Bool} {downtime : RawDowntime} {target : String} {rb a a' : RotationBuilder}
    {calls : List AddCall} {fuel : ℕ} {δ : ℚ} (hl : NonnegLocks lib)
    (hi : init stats lib snapDots false trailing fightStart downtime target = .ok rb)
    (ha : calls.foldlM AddCall.next rb = .ok a) (ht : a.getSkillTiming fuel = .ok a')
    (hm : calls.map AddCall.ms = a'.getButtonPressTiming.map (fun p => p.t + δ))
    (h0 : ∀ c ∈ calls.head?, c.ms = fightStart.getD 0) (hd : (calls.map AddCall.ms).Nodup) :
    ∃ b b', calls.foldlM AddCall.run rb = .ok b ∧ b.getSkillTiming fuel = .ok b' ∧
      b'.events = a'.events ∧ b'.getButtonPressTiming = a'.getButtonPressTiming := by
  obtain ⟨hb, c1, c2, c3, c4, rfl, c6, c7, c8, -⟩ := built_next hi ha
  obtain ⟨r⟩ := run_of_ok ht
  obtain ⟨hps, -, hfirst, δ', hpress⟩ := raw_presses hb (by rw [c8]; exact hl) c6 r
  refine replay_raw c1 c2 c3 ha r ht hps ?_ hd
  rw [hpress, List.map_map] at hm
  rw [hm]
  cases hx : r.log.presses with
  | nil => rfl
  | cons x xs =>
    have hδ : δ = δ' := by
      have hf := hfirst x (by rw [hx]; rfl)
      rw [hx] at hm
      cases hcs : calls with
      | nil =>
        rw [hcs] at hm
        cases hm
      | cons c cs =>
        rw [hcs, List.map_cons, List.map_cons, List.cons.injEq] at hm
        have hc := h0 c (by rw [hcs]; rfl)
        have k1 : c.ms = x.t - δ' + δ := hm.1
        rw [hc, hf, c7] at k1
        linarith
    subst hδ
    refine List.map_congr_left (fun p _ => ?_)
    change p.t = p.t - δ + δ
    ring

/-- C110, existence.  For a sequence that can be played there are always such times, as its presses are all at whole
milliseconds.  Partial in the same respects. -/
theorem C110_times_partial {stats : Stats} {lib : SkillLibrary} {snapDots fightStart : Option ℚ}
    {trailing : Bool} {downtime : RawDowntime} {target : String} {rb a a' : RotationBuilder}
    {calls : List AddCall} {fuel : ℕ} (hl : NonnegLocks lib)
    (hi : init stats lib snapDots false trailing fightStart downtime target = .ok rb)
    (ha : calls.foldlM AddCall.next rb = .ok a) (hp : PlayableRotation a)
    (ht : a.getSkillTiming fuel = .ok a') (hd : (a'.getButtonPressTiming.map (·.t)).Nodup) :
    ∃ calls' δ b b', List.Forall₂ (fun c c' => c' = { c with t := c'.t }) calls calls' ∧
      calls'.map AddCall.ms = a'.getButtonPressTiming.map (fun p => p.t + δ) ∧
      calls'.foldlM AddCall.run rb = .ok b ∧ b.getSkillTiming fuel = .ok b' ∧
      b'.events = a'.events ∧ b'.getButtonPressTiming = a'.getButtonPressTiming := by
  obtain ⟨hb, c1, c2, c3, c4, rfl, c6, c7, c8, hlen⟩ := built_next hi ha
  obtain ⟨r⟩ := run_of_ok ht
  obtain ⟨hps, hlen', hfirst, δ, hpress⟩ := raw_presses hb (by rw [c8]; exact hl) c6 r
  have hw := raw_whole hb hp c6 r
  obtain ⟨calls', k1, k2⟩ := exists_calls (calls := calls) hw (by omega)
  have e : r.log.presses.map (·.t) = a'.getButtonPressTiming.map (fun p => p.t + δ) := by
    rw [hpress, List.map_map]
    refine List.map_congr_left (fun p _ => ?_)
    change p.t = p.t - δ + δ
    ring
  obtain ⟨b, b', g1, g2, g3, g4⟩ := replay_raw c1 c2 c3 (by rw [← next_congr k1]; exact ha) r ht hps k2.symm (by
    rw [k2, e]
    have : (a'.getButtonPressTiming.map (fun p => p.t + δ)) =
        (a'.getButtonPressTiming.map (·.t)).map (· + δ) := by rw [List.map_map]; rfl
    rw [this]
    exact hd.map (add_left_injective δ))
  exact ⟨calls', δ, b, b', k1, k2.trans e, g1, g2, g3, g4⟩

theorem Ex.nonnegLocks : NonnegLocks Ex.lib := by
  intro name job skill h m ts hts
  have hs : skill ∈ Ex.skills := by
    unfold SkillLibrary.getSkill at h
    obtain ⟨d, h1, h⟩ := Py.bind_eq_ok.1 h
    have h1' := Dict.mem_of_get? (Dict.get_ok.1 h1)
    simp only [Ex.lib, List.mem_singleton, Prod.mk.injEq] at h1'
    obtain ⟨_, rfl⟩ := h1'
    have h2 := Dict.mem_of_get? (Dict.get_ok.1 h)
    obtain ⟨s, hs, he⟩ := List.mem_map.1 h2
    cases he
    exact hs
  have hall : ∀ s ∈ Ex.skills, ∃ ts, s.timingSpec = .single (some ts) ∧ 0 ≤ ts.animationLock := by
    intro s hs
    simp only [Ex.skills, List.mem_cons, List.not_mem_nil, or_false] at hs
    rcases hs with rfl | rfl | rfl | rfl | rfl | rfl | rfl | rfl <;>
      exact ⟨_, rfl, by norm_num⟩
  obtain ⟨ts', h1, h2⟩ := hall skill hs
  unfold SkillCore.getTimingSpec at hts
  rw [h1] at hts
  cases hts
  exact h2

/-- Five skills with the times that `get_skill_timing` gives them in a sequence: the second and the fourth are GCDs
under haste, and the last has a cast time. -/
def Ex.replayed : List AddCall :=
  [Ex.call 0 "Haste", Ex.call (65 / 100) "Hit", Ex.call (13 / 10) "Venom", Ex.call (248 / 100) "Hit" (some "A, B"),
    Ex.call (431 / 100) "Spell"]

/-- The hypotheses of `C110_replay_partial` for these skills.  The first damage is after 1.15 s. -/
example : ∃ rb a a', NonnegLocks Ex.lib ∧
    init Ex.stats Ex.lib none false false none (.tuple []) SimConsts.DEFAULT_TARGET = .ok rb ∧
    Ex.replayed.foldlM AddCall.next rb = .ok a ∧ a.getSkillTiming 0 = .ok a' ∧
    Ex.replayed.map AddCall.ms = a'.getButtonPressTiming.map (fun p => p.t + 1150) ∧
    (∀ c ∈ Ex.replayed.head?, c.ms = (none : Option ℚ).getD 0) ∧ (Ex.replayed.map AddCall.ms).Nodup := by
  have h : Ex.okAnd (Ex.replayed.foldlM AddCall.next (Ex.start (fightStart := none))) (fun a =>
      Ex.okAnd (a.getSkillTiming 0) (fun a' => decide (
        Ex.replayed.map AddCall.ms = a'.getButtonPressTiming.map (fun p => p.t + 1150) ∧
        (∀ c ∈ Ex.replayed.head?, c.ms = (none : Option ℚ).getD 0) ∧
        (Ex.replayed.map AddCall.ms).Nodup))) = true := by decide +kernel
  obtain ⟨a, h1, h⟩ := Ex.ok_of h
  obtain ⟨a', h2, h⟩ := Ex.ok_of h
  exact ⟨_, a, a', Ex.nonnegLocks, rfl, h1, h2, of_decide_eq_true h⟩

/-- A hit and a dot in sequence can be played, and are not pressed at the same time. -/
example : ∃ rb a a', NonnegLocks Ex.lib ∧
    init Ex.stats Ex.lib none false false none (.tuple []) SimConsts.DEFAULT_TARGET = .ok rb ∧
    [Ex.call 0 "Hit", Ex.call 0 "Venom"].foldlM AddCall.next rb = .ok a ∧ PlayableRotation a ∧
    a.getSkillTiming 0 = .ok a' ∧ (a'.getButtonPressTiming.map (·.t)).Nodup ∧
    a'.getButtonPressTiming.length = 2 := by
  have h : Ex.okAnd ([Ex.call 0 "Hit", Ex.call 0 "Venom"].foldlM AddCall.next (Ex.start (fightStart := none)))
      (fun a => decide (a.qSequence = [Ex.seq Ex.hit, Ex.seq Ex.venom] ∧ a.qTimed = [] ∧ a.enableAutos = false) &&
        (decide (a.fightStart = none ∧ a.stats = Ex.stats ∧ a.lib = Ex.lib) &&
        Ex.okAnd (a.getSkillTiming 0) (fun a' => decide ((a'.getButtonPressTiming.map (·.t)).Nodup ∧
          a'.getButtonPressTiming.length = 2)))) = true := by decide +kernel
  obtain ⟨a, h1, h⟩ := Ex.ok_of h
  simp only [Bool.and_eq_true, decide_eq_true_eq] at h
  obtain ⟨⟨k1, k2, k3⟩, ⟨k4, k5, k6⟩, h⟩ := h
  obtain ⟨a', h2, h⟩ := Ex.ok_of h
  obtain ⟨h3, h4⟩ := of_decide_eq_true h
  have hin : ∀ k, InPlay a k → k ∈ [Ex.hit.toSkillCore, Ex.venom.toSkillCore, Ex.poison.skill] := by
    rintro k (⟨skill, ⟨p, hp, rfl⟩ | ⟨p, hp, rfl⟩, hk⟩ | ⟨he, -⟩)
    · simp [k2] at hp
    · rw [k1] at hp
      simp only [List.mem_cons, List.not_mem_nil, or_false] at hp
      rcases hp with rfl | rfl <;> rcases hk with rfl | ⟨m, fs, hf, f, hm, rfl⟩
      · simp [Ex.seq]
      · cases hf
        simp at hm
      · simp [Ex.seq]
      · cases hf
        rw [List.mem_singleton.1 hm]
        simp
    · simp [k3] at he
  refine ⟨_, a, a', Ex.nonnegLocks, rfl, h1, ⟨?_, ?_, ⟨[], ?_, by simp [k2], ?_, by simp [k3]⟩, ⟨by simp [k2], ?_⟩,
    ⟨?_, ?_⟩, by simp [k4], by simp [k2]⟩, h2, h3, h4⟩
  · rw [k5]
    exact ⟨_, rfl⟩
  · rw [k5, k6]
    exact ⟨_, rfl⟩
  · rw [k5, k6]
    rfl
  · rw [k1]
    intro p hp
    simp only [List.mem_cons, List.not_mem_nil, or_false] at hp
    rcases hp with rfl | rfl
    · exact Ex.playable_hit _ _
    · exact Ex.playable_venom _ _
  · rw [k1]
    intro p hp
    simp only [List.mem_cons, List.not_mem_nil, or_false] at hp
    rcases hp with rfl | rfl <;> rfl
  all_goals
    intro x y m m' s s' k px py hx
    have := hin x px
    simp only [List.mem_cons, List.not_mem_nil, or_false] at this
    rcases this with rfl | rfl | rfl <;> cases hx

/-- A weaponskill and casts, with the times that `get_skill_timing` gives them in a sequence. -/
def Ex.casts : List AddCall :=
  [Ex.call 0 "Hit", Ex.call (244 / 100) "Spell", Ex.call (504 / 100) "Spell", Ex.call (764 / 100) "Spell"]

/-- C110 is false with auto-attacks: only casts that are entered with `add` delay them. -/
theorem C110_autos_refuted : ∃ rb a a' b b', NonnegLocks Ex.lib ∧
    init Ex.stats Ex.lib none true false (some 0) (.tuple []) SimConsts.DEFAULT_TARGET = .ok rb ∧
    Ex.casts.foldlM AddCall.next rb = .ok a ∧ a.getSkillTiming 100 = .ok a' ∧
    a'.getButtonPressTiming.map (·.t) = Ex.casts.map AddCall.ms ∧ (Ex.casts.map AddCall.ms).Nodup ∧
    Ex.casts.foldlM AddCall.run rb = .ok b ∧ b.getSkillTiming 100 = .ok b' ∧
    sortBy id ((a'.events.q.filter (fun e => e.skill.name = "Auto")).map (·.primary)) = [500, 3940, 7380] ∧
    sortBy id ((b'.events.q.filter (fun e => e.skill.name = "Auto")).map (·.primary)) = [500, 4390] := by
  have h : Ex.okAnd (Ex.casts.foldlM AddCall.next (Ex.start (autos := true) (fightStart := some 0))) (fun a =>
      Ex.okAnd (a.getSkillTiming 100) (fun a' =>
        Ex.okAnd (Ex.casts.foldlM AddCall.run (Ex.start (autos := true) (fightStart := some 0))) (fun b =>
          Ex.okAnd (b.getSkillTiming 100) (fun b' => decide (
            a'.getButtonPressTiming.map (·.t) = Ex.casts.map AddCall.ms ∧ (Ex.casts.map AddCall.ms).Nodup ∧
            sortBy id ((a'.events.q.filter (fun e => e.skill.name = "Auto")).map (·.primary)) = [500, 3940, 7380] ∧
            sortBy id ((b'.events.q.filter (fun e => e.skill.name = "Auto")).map (·.primary)) = [500, 4390]))))) =
      true := by decide +kernel
  obtain ⟨a, h1, h⟩ := Ex.ok_of h
  obtain ⟨a', h2, h⟩ := Ex.ok_of h
  obtain ⟨b, h3, h⟩ := Ex.ok_of h
  obtain ⟨b', h4, h⟩ := Ex.ok_of h
  obtain ⟨k1, k2, k3, k4⟩ := of_decide_eq_true h
  exact ⟨_, a, a', b, b', Ex.nonnegLocks, rfl, h1, h2, k1, k2, h3, h4, k3, k4⟩

/-- An ability without animation lock. -/
def Ex.free (name : String) : Skill :=
  { name := name, isGCD := some false
    damageSpec := .single (some { potency := 100 })
    timingSpec := .single (some { baseCastTime := 0, animationLock := 0 }) }

/-- A library of three such abilities. -/
def Ex.freeLib : SkillLibrary :=
  { Ex.lib with skills := [("test_job", ["A", "B", "C"].map (fun n => (n, Ex.free n)))] }

theorem Ex.free_nonnegLocks : NonnegLocks Ex.freeLib := by
  intro name job skill h m ts hts
  have hs : ∃ n, skill = Ex.free n := by
    unfold SkillLibrary.getSkill at h
    obtain ⟨d, h1, h⟩ := Py.bind_eq_ok.1 h
    have h1' := Dict.mem_of_get? (Dict.get_ok.1 h1)
    simp only [Ex.freeLib, List.mem_singleton, Prod.mk.injEq] at h1'
    obtain ⟨_, rfl⟩ := h1'
    have h2 := Dict.mem_of_get? (Dict.get_ok.1 h)
    obtain ⟨n, -, he⟩ := List.mem_map.1 h2
    exact ⟨n, (Prod.mk.inj he).2.symm⟩
  obtain ⟨n, rfl⟩ := hs
  unfold SkillCore.getTimingSpec at hts
  cases hts
  exact le_rfl

/-- The three abilities, all at the start. -/
def Ex.atOnce : List AddCall := [Ex.call 0 "C", Ex.call 0 "B", Ex.call 0 "A"]

/-- C110 is false for presses at the same time: those of a sequence keep their order, while `add` orders them in
part by their names. -/
theorem C110_ties_refuted : ∃ rb a a' b b', NonnegLocks Ex.freeLib ∧
    init Ex.stats Ex.freeLib none false false (some 0) (.tuple []) SimConsts.DEFAULT_TARGET = .ok rb ∧
    Ex.atOnce.foldlM AddCall.next rb = .ok a ∧ a.getSkillTiming 100 = .ok a' ∧
    a'.getButtonPressTiming.map (·.t) = Ex.atOnce.map AddCall.ms ∧
    Ex.atOnce.foldlM AddCall.run rb = .ok b ∧ b.getSkillTiming 100 = .ok b' ∧
    a'.getButtonPressTiming.map (·.name) = ["C", "B", "A"] ∧
    b'.getButtonPressTiming.map (·.name) = ["C", "A", "B"] := by
  have h : Ex.okAnd (Ex.atOnce.foldlM AddCall.next { Ex.start (fightStart := some 0) with lib := Ex.freeLib })
      (fun a => Ex.okAnd (a.getSkillTiming 100) (fun a' =>
        Ex.okAnd (Ex.atOnce.foldlM AddCall.run { Ex.start (fightStart := some 0) with lib := Ex.freeLib }) (fun b =>
          Ex.okAnd (b.getSkillTiming 100) (fun b' => decide (
            a'.getButtonPressTiming.map (·.t) = Ex.atOnce.map AddCall.ms ∧
            a'.getButtonPressTiming.map (·.name) = ["C", "B", "A"] ∧
            b'.getButtonPressTiming.map (·.name) = ["C", "A", "B"]))))) = true := by decide +kernel
  obtain ⟨a, h1, h⟩ := Ex.ok_of h
  obtain ⟨a', h2, h⟩ := Ex.ok_of h
  obtain ⟨b, h3, h⟩ := Ex.ok_of h
  obtain ⟨b', h4, h⟩ := Ex.ok_of h
  obtain ⟨k1, k2, k3⟩ := of_decide_eq_true h
  exact ⟨_, a, a', b, b', Ex.free_nonnegLocks, rfl, h1, h2, k1, h3, h4, k2, k3⟩

end Ama
