import Verif.Props.Replay
import Verif.Props.Rotation
import Verif.Props.ShippedSafe

/-!
# Playing a sequence of shipped skills again at the times worked out for it (C110)
-/

namespace Ama

open Spec GameData RotationBuilder

/-- No shipped skill has a negative animation lock. -/
theorem Shipped.nonnegLocks {version : String} {level : ℕ} {lib : SkillLibrary}
    (h : createSkillLibrary version level = .ok lib) : NonnegLocks lib :=
  fun _ _ _ hs _ _ ht => ((C77_sane h hs).1.timing _ _ ht).lock

/-- C110 for the shipped libraries; partial in the same respects as `C110_replay_partial`. -/
theorem C110_shipped_partial {version : String} {level : ℕ} {stats : Stats} {lib : SkillLibrary}
    {snapDots fightStart : Option ℚ} {trailing : Bool} {downtime : RawDowntime} {target : String}
    {rb a a' : RotationBuilder} {calls : List AddCall} {fuel : ℕ} {δ : ℚ}
    (hc : createSkillLibrary version level = .ok lib)
    (hi : init stats lib snapDots false trailing fightStart downtime target = .ok rb)
    (ha : calls.foldlM AddCall.next rb = .ok a) (ht : a.getSkillTiming fuel = .ok a')
    (hm : calls.map AddCall.ms = a'.getButtonPressTiming.map (fun p => p.t + δ))
    (h0 : ∀ c ∈ calls.head?, c.ms = fightStart.getD 0) (hd : (calls.map AddCall.ms).Nodup) :
    ∃ b b', calls.foldlM AddCall.run rb = .ok b ∧ b.getSkillTiming fuel = .ok b' ∧
      b'.events = a'.events ∧ b'.getButtonPressTiming = a'.getButtonPressTiming :=
  C110_replay_partial (Shipped.nonnegLocks hc) hi ha ht hm h0 hd

/-- C110 for the shipped libraries; partial in the same respects as `C110_times_partial`.

Any sensible sequence of shipped skills has a timeline; and if no two of its presses are at the same time, then there are
times, the reported ones up to one amount, at which the same skills entered with `add` give the same timeline and
presses. -/
theorem C110_shipped_times_partial {version : String} {level : ℕ} {stats : Stats} {lib : SkillLibrary}
    {snapDots fightStart : Option ℚ} {trailing : Bool} {downtime : RawDowntime} {target : String}
    {rb a : RotationBuilder} {calls : List AddCall} (hc : createSkillLibrary version level = .ok lib)
    (hi : init stats lib snapDots false trailing fightStart downtime target = .ok rb)
    (ha : calls.foldlM AddCall.next rb = .ok a) (hs : Sensible a) :
    ∃ n a', ∀ fuel, n ≤ fuel → a.getSkillTiming fuel = .ok a' ∧
      ((a'.getButtonPressTiming.map (·.t)).Nodup →
        ∃ calls' δ b b', List.Forall₂ (fun c c' => c' = { c with t := c'.t }) calls calls' ∧
          calls'.map AddCall.ms = a'.getButtonPressTiming.map (fun p => p.t + δ) ∧
          calls'.foldlM AddCall.run rb = .ok b ∧ b.getSkillTiming fuel = .ok b' ∧
          b'.events = a'.events ∧ b'.getButtonPressTiming = a'.getButtonPressTiming) := by
  obtain ⟨hb, -, -, c3, -, -, -, -, rfl, -⟩ := built_next hi ha
  have he : a.enableAutos = false := (next_autos ha).trans c3
  obtain ⟨n, a', hn⟩ := C84_no_raise hc hb rfl hs (by simp [he])
  obtain ⟨cs, base, ws, hlib⟩ := library_of hc
  exact ⟨n, a', fun fuel hf => ⟨hn fuel hf, fun hd => C110_times_partial (Shipped.nonnegLocks hc) hi ha
    (playableRotation hlib hb hs (by simp [he])) (hn fuel hf) hd⟩⟩

/-- A Reaper uses Soul Slice and Gallows, which are not pressed at the same time. -/
example : ∃ lib rb a, createSkillLibrary "7.05" 100 = .ok lib ∧
    init Ex.reaper lib none false false none (.tuple []) SimConsts.DEFAULT_TARGET = .ok rb ∧
    [Ex.call 0 "Soul Slice", Ex.call 0 "Gallows"].foldlM AddCall.next rb = .ok a ∧ Sensible a ∧
    ∀ fuel a', a.getSkillTiming fuel = .ok a' → (a'.getButtonPressTiming.map (·.t)).Nodup ∧
      a'.getButtonPressTiming.length = 2 := by
  obtain ⟨lib, h⟩ := Ex.shipped705
  have hj : lib.hasJobClass Ex.reaper.jobClass = true := (C75_jobs h "RPR").2 (.inl (by simp))
  have hm := Rpr.mem (Env.of "7.05" 100)
  obtain ⟨cs, base, ws, hl⟩ := library_of h
  obtain ⟨r1, s1, f2, f3, g1⟩ := hl.fact hm (p := fun r => decide (r.name = "Soul Slice") && (match mkSkill r with
      | .ok s => match s.timingSpec with
        | .single (some ts) => decide (0 < ts.animationLock)
        | _ => false
      | .error _ => false)) (by decide +kernel)
  obtain ⟨s2, g2⟩ : ∃ s, lib.getSkill "Gallows" "RPR" = .ok s := Ex.shipped_skill h hm (by decide +kernel)
  rw [f3, Bool.and_eq_true, decide_eq_true_eq] at f2
  obtain ⟨fn, f2⟩ := f2
  rw [fn] at g1
  obtain ⟨pr, hpr⟩ := hl.made.priority _ hj
  have h0 : ∃ rb0, init Ex.reaper lib none false false none (.tuple []) SimConsts.DEFAULT_TARGET = .ok rb0 ∧
      rb0.lib = lib ∧ rb0.stats = Ex.reaper ∧ rb0.qTimed = [] ∧ rb0.qSequence = [] ∧ rb0.fightStart = none ∧
      rb0.enableAutos = false := by
    unfold RotationBuilder.init
    rw [hpr]
    exact ⟨_, rfl, rfl, rfl, rfl, rfl, rfl, rfl⟩
  obtain ⟨rb0, h0, a1, a2, a3, a4, a5, a6⟩ := h0
  have step : ∀ (r : RotationBuilder) name s, r.lib = lib → r.stats = Ex.reaper → r.qTimed = [] →
      r.fightStart = none → r.enableAutos = false → lib.getSkill name "RPR" = .ok s →
      ∃ r' p, AddCall.next r (Ex.call 0 name) = .ok r' ∧ r'.lib = lib ∧ r'.stats = Ex.reaper ∧
        r'.qTimed = [] ∧ r'.fightStart = none ∧ r'.enableAutos = false ∧ r'.qSequence = r.qSequence ++ [p] ∧
        p.skill = s ∧ p.jobClass = "RPR" ∧ p.modifier.bonusPercent = none := by
    intro r name s b1 b2 b3 b4 b5 hs
    rw [← b1, show "RPR" = r.stats.jobClass by rw [b2]; rfl] at hs
    unfold AddCall.next RotationBuilder.addNext RotationBuilder.processTargets Ex.call
    simp only [Option.getD_none, hs, Py.ok_bind, Py.pure_eq]
    refine ⟨_, _, rfl, b1, b2, b3, b4, b5, rfl, rfl, by rw [b2]; rfl, ?_⟩
    unfold RotationBuilder.getDefaultSkillModifier
    split_ifs <;> rfl
  obtain ⟨x1, p1, k1, b1, b2, b3, b4, b5, b6, b7, b8, b9⟩ := step rb0 _ _ a1 a2 a3 a5 a6 g1
  obtain ⟨x2, p2, k2, c1, c2, c3, c4, c5, c6, c7, c8, c9⟩ := step x1 _ _ b1 b2 b3 b4 b5 g2
  have hq : x2.qSequence = [p1, p2] := by rw [c6, b6, a4]; rfl
  have hx : [Ex.call 0 "Soul Slice", Ex.call 0 "Gallows"].foldlM AddCall.next rb0 = .ok x2 := by
    rw [Py.foldlM_cons, k1, Py.ok_bind, Py.foldlM_cons, k2]
    rfl
  have hask : ∀ skill m job, Asked x2 skill m job → job = "RPR" ∧ m.bonusPercent = none := by
    rintro skill m job (⟨p, hp, _⟩ | ⟨p, hp, _, rfl, rfl⟩)
    · simp [c3] at hp
    · rw [hq] at hp
      simp only [List.mem_cons, List.not_mem_nil, or_false] at hp
      rcases hp with rfl | rfl
      · exact ⟨b8, b9⟩
      · exact ⟨c8, c9⟩
  refine ⟨lib, rb0, x2, h, h0, hx, ⟨.inr ?_, ?_, ?_, ?_, ?_, by simp [c4], by simp [c3], by simp [c5]⟩, ?_⟩
  · rw [c2]
    rfl
  · rw [c1, c2]
    exact hj
  · intro skill m job ha hne
    exact absurd ((hask _ _ _ ha).1.trans (by rw [c2]; rfl)) hne
  · intro skill m ha
    exact absurd (hask _ _ _ ha).1 (by decide)
  · exact fun skill m job ha => (hask _ _ _ ha).2
  · intro fuel a' ht
    have hb := (built_next h0 hx).1
    obtain ⟨δ, slots, rest, e1, e2, e3, -⟩ := C27_spacing hb ht
    have hlen := (C29_presses hb ht).2.1
    rw [hq, c3] at hlen
    rw [hq] at e1 e2
    cases e1 with
    | cons v1 e1 =>
      rename_i t1 ts
      cases e1 with
      | cons v2 e1 =>
        rename_i t2 ts
        cases e1
        have hlock := e3 [] t1 t2 [] rfl
        have hpos : 0 < t1.timing.animationLock := by
          have hts := v1.2.2.1
          rw [v1.1, b7] at hts
          simp only at f2
          split at f2
          · rename_i ts' hs'
            unfold SkillCore.getTimingSpec at hts
            rw [hs'] at hts
            cases hts
            exact of_decide_eq_true f2
          · cases f2
        have hrest : rest = [] := by
          have := e2.length_eq
          have hl2 : a'.getButtonPressTiming.length = a'.presses.length := (sortBy_perm _ _).length_eq
          simp at this hlen
          exact List.length_eq_zero_iff.1 (by omega)
        subst hrest
        refine ⟨?_, by simpa using hlen⟩
        have hp : (a'.getButtonPressTiming.map (·.t)).Perm [t1.t - δ, t2.t - δ] := by
          refine (((sortBy_perm _ _).trans e2).map _).trans ?_
          simp [reported]
        rw [hp.nodup_iff]
        simp
        intro hh
        linarith

end Ama
