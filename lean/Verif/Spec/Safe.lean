import Verif.Spec.Damage
import Verif.Spec.Dots
import Verif.Spec.Autos

/-!
# Specification vocabulary for rotations that have a timeline
-/

namespace Ama.Spec

/-- All times of the timing are whole numbers of milliseconds. -/
structure WholeTiming (ts : TimingSpec) : Prop where
  cast : Whole ts.baseCastTime
  recast : Whole ts.gcdBaseRecastTime
  lock : Whole ts.animationLock
  delay : Whole ts.applicationDelay

/-- The effect makes casts instant or shortens them by a whole number of milliseconds, and likewise
for recasts. -/
structure WholeEffect (s : StatusEffectSpec) : Prop where
  cast : s.flatCastTimeReduction = ⊤ ∨ ∃ x : ℚ, s.flatCastTimeReduction = x ∧ Whole x
  recast : Whole s.flatGcdRecastTimeReduction

/-- Whatever effects the skill gives under any conditions, their times are whole. -/
def WholeEffects (skill : SkillCore) : Prop :=
  ∀ m s, skill.getBuffSpec m = .ok (some s) ∨ skill.getDebuffSpec m = .ok (some s) → WholeEffect s

/-- The skill can be used with the conditions of `m₀`: under all conditions that include these it has
a timing and everything else can be looked up, also for its follow-ups; all times are whole, and only
configured gauges are changed. -/
structure Playable (gauges : List String) (m₀ : SkillModifier) (skill : Skill) : Prop where
  harmless : Harmless gauges m₀ skill.toSkillCore
  timing : ∀ m, m₀.withCondition ⊆ m.withCondition →
    ∃ ts, skill.getTimingSpec m = .ok (some ts) ∧ WholeTiming ts
  effects : WholeEffects skill.toSkillCore
  followUps : ∀ m, m₀.withCondition ⊆ m.withCondition →
    ∃ fs, skill.getFollowUpSkills m = .ok fs ∧ ∀ f ∈ fs, Harmless gauges {} f.skill
  followUpEffects : ∀ m fs, skill.getFollowUpSkills m = .ok fs → ∀ f ∈ fs, WholeEffects f.skill

/-- The skill belongs to a press of the rotation. -/
def Queued (rb : RotationBuilder) (skill : Skill) : Prop :=
  (∃ p ∈ rb.qTimed, p.skill = skill) ∨ ∃ p ∈ rb.qSequence, p.skill = skill

/-- The skill belongs to a press of the rotation, is a follow-up of one, or is the auto-attack. -/
def InPlay (rb : RotationBuilder) (k : SkillCore) : Prop :=
  (∃ skill, Queued rb skill ∧
    (skill.toSkillCore = k ∨ ∃ m fs, skill.getFollowUpSkills m = .ok fs ∧ ∃ f ∈ fs, f.skill = k)) ∨
  (rb.enableAutos = true ∧ ∃ skill delay, AutoSkill rb skill delay ∧ skill.toSkillCore = k)

/-- The rotation has a press of the skill, with the modifier and for the job class. -/
def Asked (rb : RotationBuilder) (skill : Skill) (m : SkillModifier) (job : String) : Prop :=
  (∃ p ∈ rb.qTimed, p.skill = skill ∧ p.modifier = m ∧ p.jobClass = job) ∨
  ∃ p ∈ rb.qSequence, p.skill = skill ∧ p.modifier = m ∧ p.jobClass = job

/-- Of the effects that skills in `P` give, only those listed make auto-attacks faster, by at most the
share given there. -/
def Faster (P : SkillCore → Prop) (get : SkillCore → SkillModifier → Py (Option StatusEffectSpec))
    (l : List (String × ℚ)) : Prop :=
  (∀ x ∈ l, 0 ≤ x.2 ∧ x.2 ≤ 1) ∧
  ∀ k m s, P k → get k m = .ok (some s) → s.autoAttackDelayReduction ≤ 0 ∨
    ∃ x ∈ l, x.1 = k.name ∧ s.autoAttackDelayReduction ≤ x.2

/-- What is left of a delay after all the listed reductions. -/
def leftOf (l : List (String × ℚ)) : ℚ := (l.map (fun x => 1 - x.2)).prod

/-- Under some conditions the skill makes somebody faster. -/
def Hastens (k : SkillCore) : Prop :=
  ∃ m spec, (k.getBuffSpec m = .ok spec ∨ k.getDebuffSpec m = .ok spec) ∧ Speeds spec

/-- What a rotation with auto-attacks needs: there is an auto-attack; everything about the skills that make
somebody faster can be looked up under all conditions, and the channels under those asked for; some press
deals damage; and even with all effects that make them faster, auto-attacks are at least ten milliseconds
apart. -/
structure PlayableAutos (gauges : List String) (rb : RotationBuilder) : Prop where
  auto : ∃ skill delay, AutoSkill rb skill delay ∧ Harmless gauges {} skill.toSkillCore ∧
    WholeEffects skill.toSkillCore
  plain : ∀ k, InPlay rb k → Hastens k → Harmless gauges {} k
  channels : ∀ p ∈ rb.qTimed, ∃ c, p.skill.getChannelingSpec p.modifier = .ok c
  hurts : ∃ skill m job, Asked rb skill m job ∧
    ∀ m', m.withCondition ⊆ m'.withCondition → ∃ d, skill.getDamageSpec m' = .ok (some d)
  pace : ∃ b d, Faster (InPlay rb) SkillCore.getBuffSpec b ∧ Faster (InPlay rb) SkillCore.getDebuffSpec d ∧
    10 ≤ (pyInt (1000 * rb.stats.weaponDelay) : ℚ) * (1 - rb.stats.processed.traitAutoAttackDelayReduction) *
      leftOf b * leftOf d

/-- The rotation can be played: the library knows the job; the speed formula is defined for the level
and version; the fight starts at a whole millisecond; every press is playable and has no bonus
percentage; no two different skills force critical or direct hits of the same skill; no two different
skills with the same name are pressed at the same time; and auto-attacks, if enabled, are possible. -/
structure PlayableRotation (rb : RotationBuilder) : Prop where
  speed : ∃ x, StatFns.getTimeUsingSpeedStat 0 rb.stats.speedStat rb.stats.version rb.stats.level = .ok x
  breakers : ∃ b, rb.lib.getAllComboBreakers rb.stats.jobClass = .ok b
  presses : ∃ settings, rb.lib.getAllResourceSettings rb.stats.jobClass = .ok settings ∧
    (∀ p ∈ rb.qTimed, Playable (Dict.keys settings) p.modifier p.skill) ∧
    (∀ p ∈ rb.qSequence, Playable (Dict.keys settings) p.modifier p.skill) ∧
    (rb.enableAutos = true → PlayableAutos (Dict.keys settings) rb)
  bonus : (∀ p ∈ rb.qTimed, p.modifier.bonusPercent = none) ∧
    ∀ p ∈ rb.qSequence, p.modifier.bonusPercent = none
  agree : Agree (InPlay rb)
  start : ∀ x, rb.fightStart = some x → Whole x
  names : ∀ p ∈ rb.qTimed, ∀ q ∈ rb.qTimed, p.t = q.t → p.skill.name = q.skill.name → p.skill = q.skill

/-- Under the conditions of `m₀` the skill names no gauge to change. -/
def NoGauges (m₀ : SkillModifier) (k : SkillCore) : Prop :=
  ∀ m specs, m₀.withCondition ⊆ m.withCondition → k.getJobResourceSpec m = .ok specs →
    ∀ r ∈ specs, r.clearAllResourcesOnly = true

/-- What a rotation of shipped skills with auto-attacks must respect: skills of other jobs that make
somebody faster change no gauge under any conditions; some press deals damage; and the delay of the weapon
is at least a tenth of a second. -/
structure SensibleAutos (rb : RotationBuilder) : Prop where
  guests : ∀ skill m job, Asked rb skill m job → job ≠ rb.stats.jobClass → Hastens skill.toSkillCore →
    NoGauges {} skill.toSkillCore
  hurts : ∃ skill m job, Asked rb skill m job ∧
    ∀ m', m.withCondition ⊆ m'.withCondition → ∃ d, skill.getDamageSpec m' = .ok (some d)
  pace : 100 ≤ (pyInt (1000 * rb.stats.weaponDelay) : ℚ) *
    (1 - rb.stats.processed.traitAutoAttackDelayReduction)

/-- What a rotation of shipped skills must respect: the level is supported and the job is in the library;
skills of other jobs are used with conditions under which they change no gauge; the Automaton Queen of
Machinists is used with conditions under which its follow-ups are known; presses have no bonus percentage;
the fight starts at a whole millisecond; skills of the same name that are pressed at the same time are of
the same job; and auto-attacks, if enabled, are possible. -/
structure Sensible (rb : RotationBuilder) : Prop where
  level : rb.stats.level = 90 ∨ rb.stats.level = 100
  job : rb.lib.hasJobClass rb.stats.jobClass = true
  guests : ∀ skill m job, Asked rb skill m job → job ≠ rb.stats.jobClass →
    NoGauges m skill.toSkillCore ∧ ∀ m' fs, skill.getFollowUpSkills m' = .ok fs → ∀ f ∈ fs, NoGauges {} f.skill
  queen : ∀ skill m, Asked rb skill m "MCH" → skill.name = "Automaton Queen" →
    ∀ m', m.withCondition ⊆ m'.withCondition → ∃ fs, skill.getFollowUpSkills m' = .ok fs
  bonus : ∀ skill m job, Asked rb skill m job → m.bonusPercent = none
  start : ∀ x, rb.fightStart = some x → Whole x
  names : ∀ p ∈ rb.qTimed, ∀ q ∈ rb.qTimed, p.t = q.t → p.skill.name = q.skill.name → p.jobClass = q.jobClass
  autos : rb.enableAutos = true → SensibleAutos rb

end Ama.Spec
