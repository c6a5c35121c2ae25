import Verif.Examples.Rotation
import Verif.Examples.DamageConditions
import Verif.Lemmas.Presses

/-!
# Rotations for the examples about presses

Nothing here is a claim; the definitions are inputs for the `example`s beside the theorems.
-/

namespace Ama.Ex

open Spec RotationBuilder

/-- A timing without cast time. -/
def instant (delay : ℤ := 0) : Cond (Option TimingSpec) :=
  .single (some { baseCastTime := 0, applicationDelay := delay })

/-- A buff of ten seconds that starts two seconds after the press. -/
def surgeSpec : StatusEffectSpec := StatusEffectSpec.make
  { duration := ((10000 : ℚ) : WithTop ℚ), damageMult := 11 / 10, addToSkillModifierCondition := true }

def surge : Skill :=
  { name := "Surge", isGCD := some false, timingSpec := instant 2000, buffSpec := .single (some surgeSpec) }

/-- A buff for the next spell. -/
def swiftSpec : StatusEffectSpec := StatusEffectSpec.make
  { duration := ((10000 : ℚ) : WithTop ℚ), numUses := 1, flatCastTimeReduction := ⊤,
    skillAllowlist := some ["Spell"] }

def swift : Skill :=
  { name := "Swift", isGCD := some false, timingSpec := instant, buffSpec := .single (some swiftSpec) }

def pressSkills : List Skill :=
  [hit, spell, surge, swift, { first with timingSpec := instant 500 },
    { second with timingSpec := instant 500 }, { gain with timingSpec := instant 500 },
    { spender with timingSpec := instant 500 }, { both with timingSpec := instant 500 }]

def pressGauges : Dict String JobResourceSettings :=
  [("Fists", { maxValue := 3, skillAllowlist := ["Spender", "Both"] })]

def pressLib : SkillLibrary :=
  { skills := [("test_job", pressSkills.map (fun s => (s.name, s)))]
    priority := [("test_job", [])]
    jobResources := [("test_job", pressGauges)]
    comboBreakers := [("test_job", [])]
    currentJobClass := some "test_job" }

/-- A builder for this library. -/
def pressStart : RotationBuilder :=
  { stats := stats, lib := pressLib, snapDots := none, enableAutos := false,
    ignoreTrailingDots := false, fightStart := some 0, priority := [],
    downtime := initDowntime (.tuple []), defaultTarget := SimConsts.DEFAULT_TARGET }

/-- The conditions of interest of an event. -/
def pressLabels (e : Event) : List String :=
  ["Surge", "Swift", "1 Fists", "2 Fists", "3 Fists", "No Combo"].filter
    (fun c => decide (c ∈ e.modifier.withCondition))

/-- A rotation with this library whose timeline can be computed. -/
theorem presses_of (ops : List BuilderOp) (P : RotationBuilder → Prop) [∀ a, Decidable (P a)]
    (h : okAnd (calls pressStart ops) (fun rb =>
      okAnd (rb.getSkillTiming 0) (fun rb' => decide (P rb'))) = true) :
    ∃ rb rb', Built rb ∧ rb.getSkillTiming 0 = .ok rb' ∧ P rb' := by
  obtain ⟨rb, h1, h2⟩ := ok_of h
  obtain ⟨rb', h3, h4⟩ := ok_of h2
  exact ⟨rb, rb', ⟨stats, pressLib, none, false, false, some 0, .tuple [], _, _, ops, rfl, h1⟩, h3,
    of_decide_eq_true h4⟩

/-- A use without cast time on one target. -/
def pressed (t : ℚ) (skill : Skill) (application : ℚ) (buffs : StatusEffects := {})
    (buffConds gauge combo : String := "") : Pressed :=
  { t := t, skill := skill, asked := {}, targets := [SimConsts.DEFAULT_TARGET], buffs := buffs,
    debuffs := {}, buffConds := buffConds, debuffConds := "", gauge := gauge, combo := combo,
    positional := ∅, timing := none, cast := 0, application := application, followUps := [] }

/-- Check that the trackers say what the uses claim. -/
def replay (tr : Trackers) (c : ComboTracker) : List Pressed → Bool
  | [] => true
  | u :: us =>
    okAnd ((tr.se.expire u.t).compileBuffs u.t u.skill.toSkillCore) fun b =>
      decide (b.1 = (u.buffs, u.buffConds)) &&
    okAnd (b.2.compileDebuffs u.t u.skill.toSkillCore) fun d =>
      decide (d.1 = (u.debuffs, u.debuffConds)) &&
    okAnd (runEffects d.2 u.effectOps) fun se =>
    okAnd (tr.res.compile u.t u.skill.name) fun g => decide (g.1 = u.gauge) &&
    okAnd (runGauge g.2 u.gaugeOps) fun res =>
    okAnd (c.compileAndUpdate u.t u.skill.toSkillCore u.beforeCombo) fun k => decide (k.1 = u.combo) &&
    replay { se := se, res := res } k.2 us

theorem tracked_of_replay (us : List Pressed) (tr : Trackers) (c : ComboTracker)
    (h : replay tr c us = true) : ∃ tr' c', TrackedSteps tr c us tr' c' := by
  induction us generalizing tr c with
  | nil => exact ⟨tr, c, .nil _ _⟩
  | cons u us ih =>
    unfold replay at h
    obtain ⟨⟨b1, b2⟩, hb, h⟩ := ok_of h
    rw [Bool.and_eq_true, decide_eq_true_eq] at h
    obtain ⟨e1, h⟩ := h
    obtain ⟨⟨d1, d2⟩, hd, h⟩ := ok_of h
    rw [Bool.and_eq_true, decide_eq_true_eq] at h
    obtain ⟨e2, h⟩ := h
    obtain ⟨se, hse, h⟩ := ok_of h
    obtain ⟨⟨g1, g2⟩, hg, h⟩ := ok_of h
    rw [Bool.and_eq_true, decide_eq_true_eq] at h
    obtain ⟨e3, h⟩ := h
    obtain ⟨res, hres, h⟩ := ok_of h
    obtain ⟨⟨k1, k2⟩, hk, h⟩ := ok_of h
    rw [Bool.and_eq_true, decide_eq_true_eq] at h
    obtain ⟨e4, h⟩ := h
    obtain ⟨tr', c', ih⟩ := ih _ _ h
    simp only at e1 e2 e3 e4
    subst e1 e2 e3 e4
    exact ⟨tr', c', .cons _ _ _ _ _ _ _ _ ⟨⟨_, _, hb, hd, hse⟩, ⟨_, hg, hres⟩, hk⟩ ih⟩

theorem played_of {us : List Pressed}
    (h : replay { se := { priority := [] }, res := JobResourceTracker.init pressGauges }
      { comboBreakers := [] } us = true) : Played pressStart us := by
  obtain ⟨tr', c', h⟩ := tracked_of_replay us _ _ h
  exact played_of_steps (by decide +kernel) h

/-- Uses of simple skills, over which an effect can be followed. -/
theorem traced_of {us : List Pressed} {name : String} {spec : StatusEffectSpec}
    (hclear : spec.clearAllStatusEffects = false) (hexp : spec.expiresStatusEffects = [])
    (hpri : pressStart.priority = [])
    (h : replay { se := { priority := [] }, res := JobResourceTracker.init pressGauges }
      { comboBreakers := [] } us = true)
    (hord : us.Pairwise (fun v w => v.t ≤ w.t)) (hone : ∀ u ∈ us, u.targets.Nodup)
    (hs : ∀ u ∈ us,
      (u.followUps = [] ∧ u.skill.buffSpec = .single none ∧ u.skill.debuffSpec = .single none ∧
        u.skill.name ≠ name) ∨
      (u.followUps = [] ∧ u.skill.buffSpec = .single (some spec) ∧
        u.skill.debuffSpec = .single none ∧ u.skill.name = name)) :
    Traced pressStart us .buffs name spec := by
  refine ⟨played_of h, .inl rfl, by rw [hpri]; simp, hclear, ?_, hord⟩
  intro u hu t skill m targets hop
  unfold Pressed.effectOps Pressed.later at hop
  rcases hs u hu with ⟨h1, h2, h3, h4⟩ | ⟨h1, h2, h3, h4⟩
  · rw [h1] at hop
    simp only [List.filter_nil, List.map_nil, List.mem_singleton, TrackerOp.add.injEq] at hop
    obtain ⟨rfl, rfl, rfl, rfl⟩ := hop
    refine ⟨?_, ?_⟩
    · intro ha
      unfold appliesEffect at ha
      simp [h4] at ha
    · intro _
      refine ⟨?_, ?_⟩
      · intro b hb
        unfold SkillCore.getBuffSpec at hb
        rw [h2] at hb
        cases hb
      · intro b hb
        unfold SkillCore.getDebuffSpec at hb
        rw [h3] at hb
        cases hb
  · rw [h1] at hop
    simp only [List.filter_nil, List.map_nil, List.mem_singleton, TrackerOp.add.injEq] at hop
    obtain ⟨rfl, rfl, rfl, rfl⟩ := hop
    refine ⟨?_, ?_⟩
    · intro _
      refine ⟨hone u hu, by rw [hexp]; simp, ?_, ?_⟩
      · unfold SkillCore.getBuffSpec
        rw [h2]
        rfl
      · intro d hd
        unfold SkillCore.getDebuffSpec at hd
        rw [h3] at hd
        cases hd
    · intro ha
      unfold appliesEffect at ha
      simp [h4] at ha

/-- The effects of a spell after "Swift". -/
def swiftSeen : StatusEffects := { flatCastTimeReduction := ⊤, statusEffects := ["Swift"] }

def swiftUses : List Pressed :=
  [pressed 0 hit 500, pressed 650 swift 650, pressed 1300 hit 1800, pressed 2440 spell 3240 swiftSeen,
    pressed 5000 spell 7500]

/-- The effects of a skill during "Surge". -/
def surgeSeen : StatusEffects := { damageMult := 11 / 10, statusEffects := ["Surge"] }

def surgeUses : List Pressed :=
  [pressed 0 surge 2000, pressed 1000 hit 1500, pressed 9000 surge 11000 surgeSeen "Surge",
    pressed 20000 hit 20500 surgeSeen "Surge", pressed 21500 surge 23500,
    pressed 22000 hit 22500, pressed 23500 hit 24000 surgeSeen "Surge"]

end Ama.Ex
