import Verif.Spec.Builder
import Verif.Lemmas.BuilderInv

/-!
# A small skill library and rotations for the examples

Nothing here is a claim; the definitions are inputs for the `example`s beside the theorems.
-/

namespace Ama.Ex

open Spec

/-- The computation succeeds with a result that satisfies the test. -/
def okAnd {α : Type} (x : Py α) (P : α → Bool) : Bool :=
  match x with
  | .ok a => P a
  | .error _ => false

theorem ok_of {α : Type} {x : Py α} {P : α → Bool} (h : okAnd x P = true) :
    ∃ a, x = .ok a ∧ P a = true := by
  cases x with
  | ok a => exact ⟨a, rfl, h⟩
  | error e => simp [okAnd] at h

def rawStats : RawStats :=
  { wd := 126, weaponDelay := some (344 / 100), mainStat := 2945, detStat := 1620, dhStat := 1275,
    critStat := 2377, speedStat := 708, jobClass := "test_job", version := "test" }

def processed : ProcessedStats :=
  { critRate := 258 / 1000, critBonus := 608 / 1000, detBonus := 1090, dhRate := 253 / 1000,
    jobMod := 115, traitDamageMult := 1, traitHasteTimeReduction := 0,
    traitAutoAttackDelayReduction := 0 }

def stats : Stats :=
  { wd := 126, weaponDelay := 344 / 100, mainStat := 2945, detStat := 1620, dhStat := 1275,
    critStat := 2377, speedStat := 708, jobClass := "test_job", version := "test", tenacity := none,
    numRolesInParty := 5, healerOrCasterStrength := none, level := 90, processed := processed }

example : mkStats rawStats = .ok stats := by decide +kernel

/-- A weaponskill that hits half a second after the press. -/
def hit : Skill :=
  { name := "Hit", isGCD := some true
    damageSpec := .single (some { potency := 300 })
    timingSpec := .single (some { baseCastTime := 0, applicationDelay := 500 }) }

/-- A spell with a cast time of two seconds. -/
def spell : Skill :=
  { name := "Spell", isGCD := some true
    damageSpec := .single (some { potency := 400 })
    timingSpec := .single (some { baseCastTime := 2000, applicationDelay := 800 }) }

/-- The ticks of a dot. -/
def poison : FollowUp :=
  { skill :=
      { name := "Poison", damageSpec := .single (some { potency := 50, damageClass := .physicalDot }) }
    delayAfterParentApplication := 0
    dotDuration := some 9000 }

/-- An ability that applies the dot. -/
def venom : Skill :=
  { name := "Venom", isGCD := some false
    damageSpec := .single (some { potency := 100 })
    timingSpec := .single (some { baseCastTime := 0, applicationDelay := 700 })
    followUpSkills := .single [poison] }

/-- An ability without damage that only applies the dot. -/
def curse : Skill :=
  { name := "Curse", isGCD := some false
    timingSpec := .single (some { baseCastTime := 0 })
    followUpSkills := .single [poison] }

/-- An ability that makes its user faster. -/
def haste : Skill :=
  { name := "Haste", isGCD := some false
    timingSpec := .single (some { baseCastTime := 0 })
    buffSpec := .single (some (StatusEffectSpec.make
      { duration := ((10000 : ℚ) : WithTop ℚ), hasteTimeReduction := 1 / 4,
        autoAttackDelayReduction := 1 / 4 })) }

/-- An ability with an echo on every target. -/
def blast : Skill :=
  { name := "Blast", isGCD := some false
    damageSpec := .single (some { potency := 100 })
    timingSpec := .single (some { baseCastTime := 0, applicationDelay := 200 })
    followUpSkills := .single [
      { skill := { name := "Echo", damageSpec := .single (some { potency := 10 }) }
        delayAfterParentApplication := 1000
        primaryTargetOnly := false }] }

def auto : Skill :=
  { name := "Auto", isGCD := some false
    damageSpec := .single (some { potency := 90, damageClass := .auto })
    timingSpec := .single (some { baseCastTime := 0, applicationDelay := 500 }) }

/-- An ability that makes only auto-attacks faster. -/
def rhythm : Skill :=
  { name := "Rhythm", isGCD := some false
    timingSpec := .single (some { baseCastTime := 0 })
    buffSpec := .single (some (StatusEffectSpec.make
      { duration := ((10000 : ℚ) : WithTop ℚ), autoAttackDelayReduction := 1 / 4,
        skillAllowlist := some ["Auto"] })) }

def skills : List Skill := [hit, spell, venom, curse, haste, blast, rhythm, auto]

def lib : SkillLibrary :=
  { skills := [("test_job", skills.map (fun s => (s.name, s)))]
    priority := [("test_job", [])]
    jobResources := [("test_job", [])]
    comboBreakers := [("test_job", [])]
    currentJobClass := some "test_job" }

theorem nonnegDelays : NonnegDelays lib := by
  intro name job skill h m ts hts
  have hs : skill ∈ skills := by
    unfold SkillLibrary.getSkill at h
    obtain ⟨d, h1, h⟩ := Py.bind_eq_ok.1 h
    have h1' := Dict.mem_of_get? (Dict.get_ok.1 h1)
    simp only [lib, List.mem_singleton, Prod.mk.injEq] at h1'
    obtain ⟨_, rfl⟩ := h1'
    have h2 := Dict.mem_of_get? (Dict.get_ok.1 h)
    obtain ⟨s, hs, he⟩ := List.mem_map.1 h2
    cases he
    exact hs
  have hall : ∀ s ∈ skills, ∃ ts, s.timingSpec = .single (some ts) ∧ 0 ≤ ts.applicationDelay := by
    intro s hs
    simp only [skills, List.mem_cons, List.not_mem_nil, or_false] at hs
    rcases hs with rfl | rfl | rfl | rfl | rfl | rfl | rfl | rfl <;>
      exact ⟨_, rfl, by norm_num⟩
  obtain ⟨ts', h1, h2⟩ := hall skill hs
  unfold SkillCore.getTimingSpec at hts
  rw [h1] at hts
  cases hts
  exact h2

/-- A builder for the library. -/
def start (snapDots : Option ℚ := none) (autos trailing : Bool := false)
    (fightStart : Option ℚ := none) (downtime : RawDowntime := .tuple []) : RotationBuilder :=
  { stats := stats, lib := lib, snapDots := snapDots, enableAutos := autos,
    ignoreTrailingDots := trailing, fightStart := fightStart, priority := [],
    downtime := RotationBuilder.initDowntime downtime, defaultTarget := SimConsts.DEFAULT_TARGET }

theorem built_of {snapDots : Option ℚ} {autos trailing : Bool} {fightStart : Option ℚ}
    {downtime : RawDowntime} {rb : RotationBuilder} (ops : List BuilderOp)
    (h : ops.foldlM BuilderOp.run (start snapDots autos trailing fightStart downtime) = .ok rb) :
    Built rb :=
  ⟨stats, lib, snapDots, autos, trailing, fightStart, downtime, _, _, ops, rfl, h⟩

/-- Trackers at the start. -/
def trackers : Trackers := { se := { priority := [] }, res := JobResourceTracker.init [] }

/-- An entry of the sequence. -/
def seq (s : Skill) (targets : List String := [SimConsts.DEFAULT_TARGET]) : SeqPress :=
  { skill := s, modifier := {}, jobClass := "test_job", targets := targets }

/-- An entry of the timed queue. -/
def timed (t : ℤ) (s : Skill) (targets : List String := [SimConsts.DEFAULT_TARGET]) : TimedPress :=
  { t := t, skill := s, modifier := {}, jobClass := "test_job", targets := targets }

/-- Perform calls. -/
def calls (rb : RotationBuilder) (ops : List BuilderOp) : Py RotationBuilder :=
  ops.foldlM BuilderOp.run rb

/-- A short way to write `add_next` and `add`. -/
def next (name : String) (n : ℕ := 1) (targets : Option String := none) : BuilderOp :=
  .addNext name none none n targets

def at_ (t : ℚ) (name : String) (targets : Option String := none) : BuilderOp :=
  .add t name none none targets

/-- A short way to write a call of `add`. -/
def call (t : ℚ) (name : String) (targets : Option String := none) : AddCall :=
  { t := t, skillName := name, targets := targets }

/-- A rotation whose timeline can be computed. -/
theorem run_of (ops : List BuilderOp) (fuel : ℕ)
    (P : RotationBuilder → RotationBuilder → Prop) [∀ a b, Decidable (P a b)]
    (snapDots : Option ℚ := none) (autos trailing : Bool := false) (fightStart : Option ℚ := none)
    (downtime : RawDowntime := .tuple [])
    (h : okAnd (calls (start snapDots autos trailing fightStart downtime) ops) (fun rb =>
      okAnd (rb.getSkillTiming fuel) (fun rb' => decide (rb.lib = lib ∧ P rb rb'))) = true) :
    ∃ rb rb', Built rb ∧ NonnegDelays rb.lib ∧ rb.getSkillTiming fuel = .ok rb' ∧ P rb rb' := by
  obtain ⟨rb, h1, h2⟩ := ok_of h
  obtain ⟨rb', h3, h4⟩ := ok_of h2
  obtain ⟨h5, h6⟩ := of_decide_eq_true h4
  exact ⟨rb, rb', built_of ops h1, h5 ▸ nonnegDelays, h3, h6⟩

end Ama.Ex
