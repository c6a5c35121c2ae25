import Verif.Lemmas.GameData.Guests
import Verif.Props.GameData
import Verif.Props.Safe

/-!
# Rotations of shipped skills have a timeline (C84)
-/

namespace Ama

open Spec GameData

variable {version : String} {level : ℕ} {lib : SkillLibrary} {rb : RotationBuilder}

theorem shipped_auto (h : createSkillLibrary version level = .ok lib) (hl : rb.lib = lib)
    (hj : lib.hasJobClass rb.stats.jobClass = true)
    (hv : ¬ (rb.stats.jobClass = "VPR" ∧ "7.01" < version ∧ version < "7.05")) :
    ∃ skill delay, AutoSkill rb skill delay := by
  obtain ⟨s, ⟨a, ha, hs⟩, hlike, huniq⟩ := C75_auto_partial h hj hv
  obtain ⟨ts, hts⟩ := hlike.delay
  refine ⟨s, ts.applicationDelay, ?_, ts, hts, rfl⟩
  rw [hl]
  have hhas : ∃ b, lib.hasSkill "Shot" rb.stats.jobClass = .ok b ∧
      (b = true ↔ ∃ s, lib.getSkill "Shot" rb.stats.jobClass = .ok s) := by
    unfold SkillLibrary.getSkill at hs
    obtain ⟨d, hd, hs⟩ := Py.bind_eq_ok.1 hs
    unfold SkillLibrary.hasSkill SkillLibrary.getSkill
    rw [hd]
    refine ⟨_, rfl, ?_⟩
    simp only [Py.ok_bind, Dict.mem, Dict.get_ok, Option.isSome_iff_exists]
  obtain ⟨b, hb, hiff⟩ := hhas
  cases b with
  | true =>
    obtain ⟨s', hs'⟩ := hiff.1 rfl
    cases huniq "Shot" (by simp) s' hs'
    exact .inl ⟨hb, hs'⟩
  | false =>
    simp only [List.mem_cons, List.not_mem_nil, or_false] at ha
    rcases ha with rfl | rfl
    · exact .inr ⟨hb, hs⟩
    · exact absurd (hiff.2 ⟨s, hs⟩) (by simp)

/-- C84: whatever shipped skills are pressed, in whatever order and whenever, with or without auto-attacks,
the rotation has a timeline, provided the few rules of `Sensible` are kept, and Vipers between 7.01 and 7.05
(who have no auto-attack, see `C75_viper_refuted`) disable auto-attacks. -/
theorem C84_no_raise (h : createSkillLibrary version level = .ok lib) (hb : Built rb) (hl : rb.lib = lib)
    (hs : Sensible rb) (hv : rb.enableAutos = true →
      ¬ (rb.stats.jobClass = "VPR" ∧ "7.01" < version ∧ version < "7.05")) :
    ∃ n rb', ∀ fuel, n ≤ fuel → rb.getSkillTiming fuel = .ok rb' := by
  subst hl
  obtain ⟨cs, base, ws, hlib⟩ := library_of h
  exact C83_no_raise hb (playableRotation hlib hb hs (fun he => shipped_auto h rfl hs.job (hv he)))

namespace Ex

/-- A modifier without a bonus that forces nothing. -/
def plainUse (m : SkillModifier) : Prop :=
  m.bonusPercent = none ∧ m.guaranteedCrit = .default ∧ m.guaranteedDh = .default

/-- Press one after the other the named skills of the named jobs. -/
theorem shipped_presses {lib : SkillLibrary} (h : createSkillLibrary version level = .ok lib) {stats : Stats}
    (hj : lib.hasJobClass stats.jobClass = true) {names : List (String × String)}
    (hn : ∀ n ∈ names, ∃ s, lib.getSkill n.1 n.2 = .ok s) (autos : Bool := false) :
    ∃ rb, Built rb ∧ rb.lib = lib ∧ rb.stats = stats ∧ rb.qTimed = [] ∧ rb.fightStart = none ∧
      rb.enableAutos = autos ∧ rb.qSequence.map (fun p => (p.skill.name, p.jobClass)) = names ∧
      ∀ p ∈ rb.qSequence, plainUse p.modifier := by
  obtain ⟨cs, base, ws, hl⟩ := library_of h
  obtain ⟨pr, hpr⟩ := hl.made.priority _ hj
  have h0 : ∃ rb0, RotationBuilder.init stats lib none autos = .ok rb0 ∧ rb0.lib = lib ∧ rb0.stats = stats ∧
      rb0.qTimed = [] ∧ rb0.fightStart = none ∧ rb0.enableAutos = autos ∧ rb0.qSequence = [] := by
    unfold RotationBuilder.init
    rw [hpr]
    exact ⟨_, rfl, rfl, rfl, rfl, rfl, rfl, rfl⟩
  obtain ⟨rb0, h0, a1, a2, a3, a4, a5, a6⟩ := h0
  suffices H : ∀ rb1 : RotationBuilder, rb1.lib = lib → rb1.stats = stats → rb1.qTimed = [] →
      rb1.fightStart = none → rb1.enableAutos = autos →
      (∀ p ∈ rb1.qSequence, plainUse p.modifier) →
      ∃ rb, (names.map (fun n => BuilderOp.addNext n.1 none (some n.2) 1 none)).foldlM BuilderOp.run rb1 = .ok rb ∧
        rb.lib = lib ∧ rb.stats = stats ∧ rb.qTimed = [] ∧ rb.fightStart = none ∧ rb.enableAutos = autos ∧
        rb.qSequence.map (fun p => (p.skill.name, p.jobClass)) =
          rb1.qSequence.map (fun p => (p.skill.name, p.jobClass)) ++ names ∧
        ∀ p ∈ rb.qSequence, plainUse p.modifier by
    obtain ⟨rb, h1, b1, b2, b3, b4, b5, b6, b7⟩ := H rb0 a1 a2 a3 a4 a5 (by simp [a6])
    exact ⟨rb, ⟨stats, lib, _, _, _, _, _, _, rb0, _, h0, h1⟩, b1, b2, b3, b4, b5, by simpa [a6] using b6, b7⟩
  clear h0 a1 a2 a3 a4 a5 a6
  induction names with
  | nil => exact fun rb1 b1 b2 b3 b4 b5 b6 => ⟨rb1, rfl, b1, b2, b3, b4, b5, by simp, b6⟩
  | cons n names ih =>
    intro rb1 b1 b2 b3 b4 b5 b6
    obtain ⟨s, hs⟩ := hn n (by simp)
    have hname := (hl.skill hs).1
    have hstep : ∃ rb2, BuilderOp.run rb1 (.addNext n.1 none (some n.2) 1 none) = .ok rb2 ∧ rb2.lib = lib ∧
        rb2.stats = stats ∧ rb2.qTimed = [] ∧ rb2.fightStart = none ∧ rb2.enableAutos = autos ∧
        rb2.qSequence.map (fun p => (p.skill.name, p.jobClass)) =
          rb1.qSequence.map (fun p => (p.skill.name, p.jobClass)) ++ [n] ∧
        ∀ p ∈ rb2.qSequence, plainUse p.modifier := by
      rw [← b1] at hs
      unfold BuilderOp.run RotationBuilder.addNext RotationBuilder.processTargets
      simp only [Option.getD_none, Option.getD_some, hs, Py.ok_bind, Py.pure_eq]
      refine ⟨_, rfl, b1, b2, b3, b4, b5, by simp [hname], ?_⟩
      intro p hp
      rcases List.mem_append.1 hp with hp | hp
      · exact b6 p hp
      · rw [List.eq_of_mem_replicate hp]
        unfold RotationBuilder.getDefaultSkillModifier
        split_ifs <;> exact ⟨rfl, rfl, rfl⟩
    obtain ⟨rb2, c0, c1, c2, c3, c4, c5, c6, c7⟩ := hstep
    obtain ⟨rb, d0, d1, d2, d3, d4, d5, d6, d7⟩ := ih (fun n hn' => hn n (List.mem_cons_of_mem _ hn')) rb2 c1 c2
      c3 c4 c5 c7
    refine ⟨rb, ?_, d1, d2, d3, d4, d5, by rw [d6, c6]; simp, d7⟩
    rw [List.map_cons, Py.foldlM_cons, c0]
    exact d0

/-- The stats of a Reaper of level 100. -/
def reaper : Stats := { stats with jobClass := "RPR", level := 100, version := "7.05" }

theorem shipped705 : ∃ lib, createSkillLibrary "7.05" 100 = .ok lib :=
  (C75_created _ _).2 (by decide +kernel)

theorem shipped_skill {lib : SkillLibrary} (h : createSkillLibrary version level = .ok lib) {j : JobClass}
    (hj : j ∈ jobClasses (Env.of version level)) {name : String}
    (hp : (rawsOf j).any (fun r => decide (r.name = name)) = true) :
    ∃ s, lib.getSkill name j.jobClass = .ok s := by
  obtain ⟨cs, base, ws, hl⟩ := library_of h
  obtain ⟨r, s, h2, h3, h4⟩ := hl.fact hj hp
  exact ⟨s, of_decide_eq_true h2 ▸ h4⟩

/-- A skill with the same damage under all conditions. -/
theorem shipped_direct {lib : SkillLibrary} (h : createSkillLibrary version level = .ok lib) {j : JobClass}
    (hj : j ∈ jobClasses (Env.of version level)) {name : String}
    (hp : (rawsOf j).any (fun r => decide (r.name = name) && (match mkSkill r with
      | .ok s => match s.damageSpec with
        | .single (some _) => true
        | _ => false
      | .error _ => false)) = true) :
    ∃ s d, lib.getSkill name j.jobClass = .ok s ∧ s.damageSpec = .single (some d) := by
  obtain ⟨cs, base, ws, hl⟩ := library_of h
  obtain ⟨r, s, h2, h3, h4⟩ := hl.fact hj hp
  rw [h3, Bool.and_eq_true, decide_eq_true_eq] at h2
  obtain ⟨h5, h6⟩ := h2
  rw [h5] at h4
  simp only at h6
  split at h6
  · rename_i d hd
    exact ⟨s, d, h4, hd⟩
  · cases h6

/-- A Reaper uses Soul Slice, Arcane Circle and Gallows. -/
theorem reaper_sensible : ∃ lib rb, createSkillLibrary "7.05" 100 = .ok lib ∧ Built rb ∧ rb.lib = lib ∧
    Sensible rb ∧ rb.enableAutos = true ∧
    rb.qSequence.map (·.skill.name) = ["Soul Slice", "Arcane Circle", "Gallows"] ∧ rb.stats = reaper ∧
    ∀ skill m job, Asked rb skill m job → plainUse m := by
  obtain ⟨lib, h⟩ := Ex.shipped705
  have hj : lib.hasJobClass Ex.reaper.jobClass = true := (C75_jobs h "RPR").2 (.inl (by simp))
  obtain ⟨rb, h1, h2, h3, h4, h5, h6, h7, h8⟩ := Ex.shipped_presses h (stats := Ex.reaper) hj
    (names := [("Soul Slice", "RPR"), ("Arcane Circle", "RPR"), ("Gallows", "RPR")]) (by
      intro n hn
      have hm := Rpr.mem (Env.of "7.05" 100)
      simp only [List.mem_cons, List.not_mem_nil, or_false] at hn
      rcases hn with rfl | rfl | rfl
      · exact Ex.shipped_skill h hm (by decide +kernel)
      · exact Ex.shipped_skill h hm (by decide +kernel)
      · exact Ex.shipped_skill h hm (by decide +kernel)) true
  have hslice : ∃ s d, lib.getSkill "Soul Slice" "RPR" = .ok s ∧ s.damageSpec = .single (some d) :=
    Ex.shipped_direct h (Rpr.mem (Env.of "7.05" 100)) (by decide +kernel)
  have hjob : ∀ skill m job, Asked rb skill m job → job = "RPR" ∧ plainUse m := by
    rintro skill m job (⟨p, hp, _⟩ | ⟨p, hp, _, rfl, rfl⟩)
    · simp [h4] at hp
    · have := List.mem_map_of_mem (f := fun p : SeqPress => (p.skill.name, p.jobClass)) hp
      rw [h7] at this
      refine ⟨?_, h8 p hp⟩
      simp only [List.mem_cons, List.not_mem_nil, or_false, Prod.mk.injEq] at this
      tauto
  refine ⟨lib, rb, h, h1, h2, ⟨.inr ?_, ?_, ?_, ?_, ?_, by simp [h5], by simp [h4],
    fun _ => ⟨?_, ?_, ?_⟩⟩, h6, ?_, h3, fun skill m job ha => (hjob _ _ _ ha).2⟩
  · rw [h3]
    rfl
  · rw [h2, h3]
    exact hj
  · intro skill m job ha hne
    exact absurd ((hjob _ _ _ ha).1.trans (by rw [h3]; rfl)) hne
  · intro skill m ha
    exact absurd (hjob _ _ _ ha).1 (by decide)
  · exact fun skill m job ha => (hjob _ _ _ ha).2.1
  · intro skill m job ha hne
    exact absurd ((hjob _ _ _ ha).1.trans (by rw [h3]; rfl)) hne
  · obtain ⟨s, d, hs1, hs2⟩ := hslice
    obtain ⟨p, hp, hpn⟩ : ∃ p ∈ rb.qSequence, (p.skill.name, p.jobClass) = ("Soul Slice", "RPR") := by
      have : ("Soul Slice", "RPR") ∈ rb.qSequence.map (fun p => (p.skill.name, p.jobClass)) := by simp [h7]
      simpa using this
    rw [Prod.mk.injEq] at hpn
    obtain ⟨-, name, hl⟩ := (RotationBuilder.built_inv h1).seq p hp
    obtain ⟨cs, base, ws, hlib⟩ := library_of h
    rw [h2, hpn.2] at hl
    rw [← (hlib.skill hl).1, hpn.1, hs1] at hl
    cases hl
    refine ⟨p.skill, p.modifier, p.jobClass, .inr ⟨p, hp, rfl, rfl, rfl⟩, fun m' _ => ⟨d, ?_⟩⟩
    unfold SkillCore.getDamageSpec
    rw [hs2]
    rfl
  · rw [h3]
    decide +kernel
  · have := congrArg (List.map Prod.fst) h7
    simpa [List.map_map, Function.comp_def] using this

end Ex

/-- The hypotheses can be met: a Reaper uses Soul Slice, Arcane Circle and Gallows. -/
example : ∃ lib rb, createSkillLibrary "7.05" 100 = .ok lib ∧ Built rb ∧ rb.lib = lib ∧ Sensible rb ∧
    rb.enableAutos = true ∧ rb.qSequence.map (·.skill.name) = ["Soul Slice", "Arcane Circle", "Gallows"] :=
  let ⟨lib, rb, h1, h2, h3, h4, h5, h6, _⟩ := Ex.reaper_sensible
  ⟨lib, rb, h1, h2, h3, h4, h5, h6⟩

/-- C84 fails for skills of other jobs that change a gauge: whoever is not a Machinist and begins with a
Machinist's Air Anchor gets a KeyError. -/
theorem C84_guest_refuted (h : createSkillLibrary version level = .ok lib) (hb : Built rb) (hl : rb.lib = lib)
    (hlevel : rb.stats.level = 90 ∨ rb.stats.level = 100) (hj : lib.hasJobClass rb.stats.jobClass = true)
    (hne : rb.stats.jobClass ≠ "MCH") (hstart : ∀ x, rb.fightStart = some x → Whole x) {p : SeqPress}
    {ps : List SeqPress} (hq : rb.qSequence = p :: ps) (hm : p.jobClass = "MCH")
    (hn : p.skill.name = "Air Anchor") (hbonus : p.modifier.bonusPercent = none) (fuel : ℕ) :
    rb.getSkillTiming fuel = .error .keyError := by
  subst hl
  obtain ⟨cs, base, ws, hlib⟩ := library_of h
  exact guest_raises hlib (good_of h) hb hlevel hj hne hstart hq hm hn hbonus fuel

/-- There is such a rotation. -/
example : ∃ lib rb, createSkillLibrary "7.05" 100 = .ok lib ∧ Built rb ∧ rb.lib = lib ∧
    rb.stats.jobClass = "RPR" ∧ rb.qSequence.map (fun p => (p.skill.name, p.jobClass)) = [("Air Anchor", "MCH")] ∧
    rb.getSkillTiming 0 = .error .keyError := by
  obtain ⟨lib, h⟩ := Ex.shipped705
  have hj : lib.hasJobClass Ex.reaper.jobClass = true := (C75_jobs h "RPR").2 (.inl (by simp))
  obtain ⟨rb, h1, h2, h3, h4, h5, h6, h7, h8⟩ := Ex.shipped_presses h (stats := Ex.reaper) hj
    (names := [("Air Anchor", "MCH")]) (by
      intro n hn
      rw [List.mem_singleton] at hn
      subst hn
      exact Ex.shipped_skill h (Mch.mem _) (by decide +kernel))
  refine ⟨lib, rb, h, h1, h2, by rw [h3]; rfl, h7, ?_⟩
  obtain ⟨p, ps, hq⟩ : ∃ p ps, rb.qSequence = p :: ps := by
    cases hs : rb.qSequence with
    | nil => simp [hs] at h7
    | cons p ps => exact ⟨p, ps, rfl⟩
  have h9 : p.skill.name = "Air Anchor" ∧ p.jobClass = "MCH" := by
    rw [hq] at h7
    simp only [List.map_cons, List.cons.injEq, Prod.mk.injEq] at h7
    exact h7.1
  exact C84_guest_refuted h h1 h2 (.inr (by rw [h3]; rfl)) (by rw [h3]; exact hj) (by rw [h3]; decide)
    (by simp [h5]) hq h9.2 h9.1 (h8 p (by simp [hq])).1 0

end Ama
