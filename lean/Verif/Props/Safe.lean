import Verif.Lemmas.AutosSafe
import Verif.Examples.Damage

/-!
# Rotations that have a timeline (C83)
-/

namespace Ama

open Spec

/-- C83: a rotation that can be played (`PlayableRotation`) has a timeline: `get_skill_timing` terminates
without an exception.  (The model bounds the number of auto-attacks; the result is the same for all bounds
that are large enough.) -/
theorem C83_no_raise {rb : RotationBuilder} (hb : Built rb) (h : PlayableRotation rb) :
    ∃ n rb', ∀ fuel, n ≤ fuel → rb.getSkillTiming fuel = .ok rb' :=
  RotationBuilder.timing_total hb h

namespace Ex

/-- A spec without variants, gauges or combos can be used under all conditions. -/
theorem harmless_single {g : List String} {m₀ : SkillModifier} {k : SkillCore} {d : Option DamageSpec}
    {b b' : Option StatusEffectSpec} (h1 : k.damageSpec = .single d) (h2 : k.buffSpec = .single b)
    (h3 : k.debuffSpec = .single b') (h4 : k.jobResourceSpec = .single []) (h5 : k.comboSpec = .single []) :
    Harmless g m₀ k where
  damage := fun m _ => ⟨d, by unfold SkillCore.getDamageSpec; rw [h1]; rfl⟩
  buff := fun m _ => ⟨b, by unfold SkillCore.getBuffSpec; rw [h2]; rfl⟩
  debuff := fun m _ => ⟨b', by unfold SkillCore.getDebuffSpec; rw [h3]; rfl⟩
  gauge := fun m _ => ⟨[], by unfold SkillCore.getJobResourceSpec; rw [h4]; rfl, by simp⟩
  combo := fun m _ => ⟨[], by unfold SkillCore.getComboSpec; rw [h5]; rfl⟩

theorem playable_hit (g : List String) (m₀ : SkillModifier) : Playable g m₀ hit := by
  refine ⟨harmless_single rfl rfl rfl rfl rfl,
    fun m _ => ⟨_, rfl, ⟨0, rfl⟩, ⟨2500, rfl⟩, ⟨650, rfl⟩, ⟨500, rfl⟩⟩, ?_, fun m _ => ⟨_, rfl, by simp⟩, ?_⟩
  · rintro m s (h | h) <;> cases h
  · intro m fs h f hf
    cases h
    simp at hf

theorem playable_venom (g : List String) (m₀ : SkillModifier) : Playable g m₀ venom := by
  refine ⟨harmless_single rfl rfl rfl rfl rfl,
    fun m _ => ⟨_, rfl, ⟨0, rfl⟩, ⟨2500, rfl⟩, ⟨650, rfl⟩, ⟨700, rfl⟩⟩, ?_, fun m _ => ⟨[poison], rfl, ?_⟩, ?_⟩
  · rintro m s (h | h) <;> cases h
  · intro f hf
    rw [List.mem_singleton.1 hf]
    exact harmless_single rfl rfl rfl rfl rfl
  · intro m fs h f hf
    cases h
    rw [List.mem_singleton.1 hf]
    rintro m s (h | h) <;> cases h

theorem playable_haste (g : List String) (m₀ : SkillModifier) : Playable g m₀ haste := by
  refine ⟨harmless_single rfl rfl rfl rfl rfl,
    fun m _ => ⟨_, rfl, ⟨0, rfl⟩, ⟨2500, rfl⟩, ⟨650, rfl⟩, ⟨0, rfl⟩⟩, ?_, fun m _ => ⟨_, rfl, by simp⟩, ?_⟩
  · rintro m s (h | h) <;> cases h
    exact ⟨.inr ⟨0, rfl, 0, rfl⟩, 0, rfl⟩
  · intro m fs h f hf
    cases h
    simp at hf

/-- A dot, a faster attack and an attack at its own time, with auto-attacks, in a fight that starts after
two seconds. -/
def mixed : Py RotationBuilder :=
  calls (start none true false (some 2000)) [next "Haste", next "Venom", next "Hit", at_ 5 "Hit"]

theorem mixed_fields : ∃ rb, mixed = .ok rb ∧ rb.qSequence = [Ex.seq Ex.haste, Ex.seq Ex.venom, Ex.seq Ex.hit] ∧
    rb.qTimed = [Ex.timed 5000 Ex.hit] ∧ rb.enableAutos = true ∧ rb.fightStart = some 2000 ∧
    rb.stats = Ex.stats ∧ rb.lib = Ex.lib ∧ AutoSkill rb Ex.auto 500 := by
  have h : Ex.okAnd mixed (fun rb =>
        decide (rb.qSequence = [Ex.seq Ex.haste, Ex.seq Ex.venom, Ex.seq Ex.hit] ∧
          rb.qTimed = [Ex.timed 5000 Ex.hit]) &&
        decide (rb.enableAutos = true ∧ rb.fightStart = some 2000 ∧ rb.stats = Ex.stats ∧ rb.lib = Ex.lib)) =
          true := by
    decide +kernel
  obtain ⟨rb, h1, h2⟩ := Ex.ok_of h
  simp only [Bool.and_eq_true, decide_eq_true_eq] at h2
  obtain ⟨⟨h2, h3⟩, h4, h5, h6, h7⟩ := h2
  refine ⟨rb, h1, h2, h3, h4, h5, h6, h7, .inr ?_, _, rfl, rfl⟩
  rw [h6, h7]
  exact ⟨rfl, rfl⟩

theorem mixed_inPlay {rb : RotationBuilder}
    (h2 : rb.qSequence = [Ex.seq Ex.haste, Ex.seq Ex.venom, Ex.seq Ex.hit])
    (h3 : rb.qTimed = [Ex.timed 5000 Ex.hit]) (hauto : AutoSkill rb Ex.auto 500) :
    ∀ k, InPlay rb k → k ∈ [Ex.haste.toSkillCore, Ex.venom.toSkillCore, Ex.hit.toSkillCore,
      Ex.poison.skill, Ex.auto.toSkillCore] := by
  rintro k (⟨skill, hq, hk⟩ | ⟨-, skill, delay, hs, rfl⟩)
  · have hs : skill = Ex.haste ∨ skill = Ex.venom ∨ skill = Ex.hit := by
      rcases hq with ⟨p, hp, rfl⟩ | ⟨p, hp, rfl⟩
      · rw [h3] at hp
        rw [List.mem_singleton.1 hp]
        exact .inr (.inr rfl)
      · rw [h2] at hp
        simp only [List.mem_cons, List.not_mem_nil, or_false] at hp
        rcases hp with rfl | rfl | rfl
        · exact .inl rfl
        · exact .inr (.inl rfl)
        · exact .inr (.inr rfl)
    rcases hs with rfl | rfl | rfl <;> rcases hk with rfl | ⟨m, fs, hf, f, hm, rfl⟩
    · simp
    · cases hf
      simp at hm
    · simp
    · cases hf
      rw [List.mem_singleton.1 hm]
      simp
    · simp
    · cases hf
      simp at hm
  · cases (RotationBuilder.autoSkill_of hs).1.symm.trans (RotationBuilder.autoSkill_of hauto).1
    simp

theorem mixed_playable : ∃ rb, mixed = .ok rb ∧ Built rb ∧ PlayableRotation rb ∧ rb.enableAutos = true ∧
    rb.qSequence.length = 3 ∧ rb.qTimed.length = 1 := by
  obtain ⟨rb, h1, h2, h3, h4, h5, h6, h7, hauto⟩ := mixed_fields
  refine ⟨rb, h1, Ex.built_of _ h1, ?_, h4, by rw [h2]; rfl, by rw [h3]; rfl⟩
  have hin := mixed_inPlay h2 h3 hauto
  have hbuff : ∀ k, InPlay rb k → k = Ex.haste.toSkillCore ∨ ∀ m s, k.getBuffSpec m ≠ .ok (some s) := by
    intro k hk
    have := hin k hk
    simp only [List.mem_cons, List.not_mem_nil, or_false] at this
    rcases this with rfl | rfl | rfl | rfl | rfl
    · exact .inl rfl
    all_goals exact .inr (fun m s h => by cases h)
  have hdeb : ∀ k, InPlay rb k → ∀ m s, k.getDebuffSpec m ≠ .ok (some s) := by
    intro k hk m s h
    have := hin k hk
    simp only [List.mem_cons, List.not_mem_nil, or_false] at this
    rcases this with rfl | rfl | rfl | rfl | rfl <;> cases h
  refine ⟨?_, ?_, ⟨[], ?_, ?_, ?_, fun _ => ⟨⟨Ex.auto, 500, hauto, ?_, ?_⟩, ?_, ?_, ?_, ?_⟩⟩, ⟨?_, ?_⟩, ⟨?_, ?_⟩,
    ?_, ?_⟩
  · rw [h6]
    exact ⟨_, rfl⟩
  · rw [h6, h7]
    exact ⟨_, rfl⟩
  · rw [h6, h7]
    rfl
  · rw [h3]
    intro p hp
    rw [List.mem_singleton.1 hp]
    exact Ex.playable_hit _ _
  · rw [h2]
    intro p hp
    simp only [List.mem_cons, List.not_mem_nil, or_false] at hp
    rcases hp with rfl | rfl | rfl
    · exact Ex.playable_haste _ _
    · exact Ex.playable_venom _ _
    · exact Ex.playable_hit _ _
  · exact Ex.harmless_single rfl rfl rfl rfl rfl
  · rintro m s (h | h) <;> cases h
  · intro k hk _
    have := hin k hk
    simp only [List.mem_cons, List.not_mem_nil, or_false] at this
    rcases this with rfl | rfl | rfl | rfl | rfl <;> exact Ex.harmless_single rfl rfl rfl rfl rfl
  · rw [h3]
    intro p hp
    rw [List.mem_singleton.1 hp]
    exact ⟨_, rfl⟩
  · refine ⟨Ex.hit, _, _, .inl ⟨Ex.timed 5000 Ex.hit, by rw [h3]; simp, rfl, rfl, rfl⟩, fun m _ => ⟨_, rfl⟩⟩
  · refine ⟨[("Haste", 1 / 4)], [], ⟨?_, ?_⟩, ⟨by simp, ?_⟩, ?_⟩
    · intro x hx
      rw [List.mem_singleton.1 hx]
      norm_num
    · intro k m s hk h
      rcases hbuff k hk with rfl | h8
      · cases h
        exact .inr ⟨("Haste", 1 / 4), by simp, rfl, by decide +kernel⟩
      · exact absurd h (h8 _ _)
    · exact fun k m s hk h => absurd h (hdeb k hk _ _)
    · rw [h6]
      decide +kernel
  · rw [h3]
    intro p hp
    rw [List.mem_singleton.1 hp]
    rfl
  · rw [h2]
    intro p hp
    simp only [List.mem_cons, List.not_mem_nil, or_false] at hp
    rcases hp with rfl | rfl | rfl <;> rfl
  · intro a b m m' s s' k pa pb ha hb _ _ _ _
    rcases hbuff a pa with rfl | h8
    · rcases hbuff b pb with rfl | h9
      · rfl
      · exact absurd hb (h9 _ _)
    · exact absurd ha (h8 _ _)
  · intro a b m m' s s' k pa pb ha
    exact absurd ha (hdeb a pa _ _)
  · rw [h5]
    rintro x ⟨⟩
    exact ⟨2000, rfl⟩
  · rw [h3]
    intro p hp q hq _ _
    rw [List.mem_singleton.1 hp, List.mem_singleton.1 hq]

end Ex

/-- The hypotheses can be met. -/
example : ∃ rb, Built rb ∧ PlayableRotation rb ∧ rb.enableAutos = true ∧
    rb.qSequence.length = 3 ∧ rb.qTimed.length = 1 :=
  let ⟨rb, h⟩ := Ex.mixed_playable
  ⟨rb, h.2⟩

namespace Ex

/-- Another ability that forces critical hits. -/
def iron : Skill := { steel with name := "Iron" }

/-- A library with two abilities that force critical hits, and with two different skills of the same
name, of different jobs. -/
def twoJobs : SkillLibrary :=
  { skills := [("test_job", [("Steel", steel), ("Iron", iron), ("Hit", hit)]),
      ("other_job", [("Hit", { hit with timingSpec := .single (some { baseCastTime := 0 }) })])]
    priority := [("test_job", [])]
    jobResources := [("test_job", [])]
    comboBreakers := [("test_job", [])]
    currentJobClass := some "test_job" }

/-- A builder for the given library. -/
def startWith (lib : SkillLibrary) (fightStart : Option ℚ := none) : RotationBuilder :=
  { start none false false fightStart with lib := lib }

theorem built_with {lib : SkillLibrary} {fightStart : Option ℚ} {rb : RotationBuilder} (ops : List BuilderOp)
    (hl : lib = Ex.lib ∨ lib = twoJobs) (h : calls (startWith lib fightStart) ops = .ok rb) : Built rb := by
  refine ⟨stats, lib, none, false, false, fightStart, .tuple [], SimConsts.DEFAULT_TARGET, _, ops, ?_, h⟩
  rcases hl with rfl | rfl <;> rfl

/-- The rotation satisfies the test, and asking for its timeline raises an exception. -/
def raises (lib : SkillLibrary) (fightStart : Option ℚ) (ops : List BuilderOp) (e : PyErr)
    (P : RotationBuilder → Bool) : Bool :=
  okAnd (calls (startWith lib fightStart) ops) (fun rb =>
    P rb && match rb.getSkillTiming 0 with
    | .error e' => decide (e' = e)
    | .ok _ => false)

theorem raises_built {lib : SkillLibrary} {fightStart : Option ℚ} {ops : List BuilderOp} {e : PyErr}
    {P : RotationBuilder → Bool} (hl : lib = Ex.lib ∨ lib = twoJobs)
    (h : raises lib fightStart ops e P = true) :
    ∃ rb, Built rb ∧ P rb = true ∧ rb.getSkillTiming 0 = .error e := by
  obtain ⟨rb, h1, h2⟩ := ok_of h
  rw [Bool.and_eq_true] at h2
  refine ⟨rb, built_with ops hl h1, h2.1, ?_⟩
  have h2 := h2.2
  cases h3 : rb.getSkillTiming 0 with
  | ok a => rw [h3] at h2; simp at h2
  | error e' => rw [h3] at h2; rw [of_decide_eq_true h2]

end Ex

/-- The start of the fight must be whole: half a millisecond in, the dot of a single press raises a
TypeError. -/
theorem C83_start_refuted : ∃ rb, Built rb ∧ rb.fightStart = some (1 / 2) ∧ rb.qTimed = [] ∧
    rb.qSequence = [Ex.seq Ex.venom] ∧ rb.getSkillTiming 0 = .error .typeError := by
  obtain ⟨rb, h1, h2, h3⟩ := Ex.raises_built (lib := Ex.lib) (fightStart := some (1 / 2))
    (ops := [Ex.next "Venom"]) (e := .typeError) (P := fun rb => decide (rb.fightStart = some (1 / 2) ∧
      rb.qTimed = [] ∧ rb.qSequence = [Ex.seq Ex.venom])) (.inl rfl) (by decide +kernel)
  obtain ⟨h4, h5, h6⟩ := of_decide_eq_true h2
  exact ⟨rb, h1, h4, h5, h6, h3⟩

/-- Effects must agree: two abilities that both force critical hits, and a hit after them, raise an
AssertionError. -/
theorem C83_forcing_refuted : ∃ rb, Built rb ∧ rb.fightStart = none ∧ rb.qTimed = [] ∧
    rb.qSequence = [Ex.seq Ex.steel, Ex.seq Ex.iron, Ex.seq Ex.hit] ∧
    rb.getSkillTiming 0 = .error .assertionError := by
  obtain ⟨rb, h1, h2, h3⟩ := Ex.raises_built (lib := Ex.twoJobs) (fightStart := none)
    (ops := [Ex.next "Steel", Ex.next "Iron", Ex.next "Hit"]) (e := .assertionError)
    (P := fun rb => decide (rb.fightStart = none ∧ rb.qTimed = [] ∧
      rb.qSequence = [Ex.seq Ex.steel, Ex.seq Ex.iron, Ex.seq Ex.hit])) (.inr rfl) (by decide +kernel)
  obtain ⟨h4, h5, h6⟩ := of_decide_eq_true h2
  exact ⟨rb, h1, h4, h5, h6, h3⟩

/-- Names must differ: two different skills of the same name, of different jobs, pressed at the same time
after some other press raise a TypeError. -/
theorem C83_names_refuted : ∃ rb, Built rb ∧ rb.fightStart = none ∧ rb.qSequence = [] ∧
    (∃ o p q, rb.qTimed = [o, p, q] ∧ p.t = q.t ∧ p.skill.name = q.skill.name) ∧
    rb.getSkillTiming 0 = .error .typeError := by
  obtain ⟨rb, h1, h2, h3⟩ := Ex.raises_built (lib := Ex.twoJobs) (fightStart := none)
    (ops := [Ex.at_ 0 "Steel", Ex.at_ 1 "Hit", .add 1 "Hit" none (some "other_job") none]) (e := .typeError)
    (P := fun rb => decide (rb.fightStart = none ∧ rb.qSequence = [] ∧
      rb.qTimed.map (fun p => (p.t, p.skill.name)) = [(0, "Steel"), (1000, "Hit"), (1000, "Hit")])) (.inr rfl)
    (by decide +kernel)
  obtain ⟨h4, h5, h6⟩ := of_decide_eq_true h2
  refine ⟨rb, h1, h4, h5, ?_, h3⟩
  match hq : rb.qTimed with
  | [] => simp [hq] at h6
  | [_] => simp [hq] at h6
  | [_, _] => simp [hq] at h6
  | [o, p, q] =>
    simp only [hq, List.map_cons, List.map_nil, List.cons.injEq, Prod.mk.injEq, and_true] at h6
    exact ⟨o, p, q, rfl, h6.2.1.1.trans h6.2.2.1.symm, h6.2.1.2.trans h6.2.2.2.symm⟩
  | _ :: _ :: _ :: _ :: _ => simp [hq] at h6

namespace Ex

/-- With auto-attacks, the rotation satisfies the test and asking for its timeline raises an exception. -/
def raisesAutos (ops : List BuilderOp) (e : PyErr) (P : RotationBuilder → Bool) : Bool :=
  okAnd (calls (start none true) ops) (fun rb =>
    P rb && match rb.getSkillTiming 9 with
    | .error e' => decide (e' = e)
    | .ok _ => false)

theorem raises_autos {ops : List BuilderOp} {e : PyErr} {P : RotationBuilder → Bool}
    (h : raisesAutos ops e P = true) : ∃ rb, Built rb ∧ P rb = true ∧ rb.getSkillTiming 9 = .error e := by
  obtain ⟨rb, h1, h2⟩ := ok_of h
  rw [Bool.and_eq_true] at h2
  refine ⟨rb, built_of ops h1, h2.1, ?_⟩
  have h2 := h2.2
  cases h3 : rb.getSkillTiming 9 with
  | ok a => rw [h3] at h2; simp at h2
  | error e' => rw [h3] at h2; rw [of_decide_eq_true h2]

end Ex

/-- With auto-attacks some press must deal damage: a lone buff raises a TypeError. -/
theorem C83_harmless_autos_refuted : ∃ rb, Built rb ∧ rb.enableAutos = true ∧ rb.qTimed = [] ∧
    rb.qSequence = [Ex.seq Ex.haste] ∧ rb.getSkillTiming 9 = .error .typeError := by
  obtain ⟨rb, h1, h2, h3⟩ := Ex.raises_autos (ops := [Ex.next "Haste"]) (e := .typeError)
    (P := fun rb => decide (rb.enableAutos = true ∧ rb.qTimed = [] ∧ rb.qSequence = [Ex.seq Ex.haste]))
    (by decide +kernel)
  obtain ⟨h4, h5, h6⟩ := of_decide_eq_true h2
  exact ⟨rb, h1, h4, h5, h6, h3⟩

/-- With auto-attacks there must be a press: an empty rotation raises an IndexError, though without
auto-attacks it has an (empty) timeline. -/
theorem C83_empty_autos_refuted : ∃ rb, Built rb ∧ rb.enableAutos = true ∧ rb.qTimed = [] ∧
    rb.qSequence = [] ∧ rb.getSkillTiming 9 = .error .indexError := by
  obtain ⟨rb, h1, h2, h3⟩ := Ex.raises_autos (ops := []) (e := .indexError)
    (P := fun rb => decide (rb.enableAutos = true ∧ rb.qTimed = [] ∧ rb.qSequence = [])) (by decide +kernel)
  obtain ⟨h4, h5, h6⟩ := of_decide_eq_true h2
  exact ⟨rb, h1, h4, h5, h6, h3⟩

end Ama
