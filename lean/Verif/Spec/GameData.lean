import Verif.Model.GameData.Library
import Verif.Spec.Variants

/-!
# Specification vocabulary for the shipped skill library
-/

namespace Ama.Spec

/-- The versions and levels the game data covers: level 90 at version 6.55, and levels 90 and 100 from
version 7.0 on.  Versions are strings, compared as strings. -/
def Shipped (version : String) (level : ℕ) : Prop :=
  (level = 90 ∧ version = "6.55") ∨ ((level = 90 ∨ level = 100) ∧ "7.0" ≤ version)

instance (version : String) (level : ℕ) : Decidable (Shipped version level) := by
  unfold Shipped
  infer_instance

/-- Every question about the skill has an answer: whatever the conditions, no lookup raises. -/
structure Answers (s : SkillCore) : Prop where
  damage : ∀ m, ∃ x, s.getDamageSpec m = .ok x
  timing : ∀ m, ∃ x, s.getTimingSpec m = .ok x
  buff : ∀ m, ∃ x, s.getBuffSpec m = .ok x
  debuff : ∀ m, ∃ x, s.getDebuffSpec m = .ok x
  channeling : ∀ m, ∃ x, s.getChannelingSpec m = .ok x
  resource : ∀ m, ∃ x, s.getJobResourceSpec m = .ok x
  combo : ∀ m, ∃ x, s.getComboSpec m = .ok x

/-- The times of a timing spec are not negative. -/
structure SaneTiming (t : TimingSpec) : Prop where
  cast : 0 ≤ t.baseCastTime
  recast : 0 ≤ t.gcdBaseRecastTime
  lock : 0 ≤ t.animationLock
  delay : 0 ≤ t.applicationDelay

/-- The numbers of a damage spec do not turn damage into healing. -/
structure SaneDamage (d : DamageSpec) : Prop where
  potency : 0 ≤ d.potency
  pet : 0 < d.petScalar
  mult : 0 < d.singleDamageMult
  trait : ∀ x, d.traitDamageMultOverride = some x → 0 < x
  job : ∀ x, d.petJobModOverride = some x → 0 < x
  least : ∀ x, d.useMinPotency = some x → 0 ≤ x

/-- A status effect that does what status effects do in the game: rates are added within [0, 1], damage
and main stat are multiplied by something positive, times are shortened but not to nothing or beyond, it
lasts no longer and is used no more often than its own limits, and has a use. -/
structure SaneEffect (e : StatusEffectSpec) : Prop where
  crit : 0 ≤ e.critRateAdd ∧ e.critRateAdd ≤ 1
  dh : 0 ≤ e.dhRateAdd ∧ e.dhRateAdd ≤ 1
  damage : 1 ≤ e.damageMult
  statAdd : 0 ≤ e.mainStatAdd
  statMult : 0 < e.mainStatMult
  auto : 0 ≤ e.autoAttackDelayReduction ∧ e.autoAttackDelayReduction < 1
  haste : 0 ≤ e.hasteTimeReduction ∧ e.hasteTimeReduction < 1
  cast : 0 ≤ e.flatCastTimeReduction
  recast : 0 ≤ e.flatGcdRecastTimeReduction
  duration : 0 ≤ e.duration ∧ e.duration ≤ e.maxDuration
  uses : 1 ≤ e.numUses ∧ e.numUses ≤ e.maxNumUses

/-- All that a skill can answer is sane. -/
structure SaneSkill (s : SkillCore) : Prop where
  damage : ∀ m x, s.getDamageSpec m = .ok (some x) → SaneDamage x
  timing : ∀ m x, s.getTimingSpec m = .ok (some x) → SaneTiming x
  buff : ∀ m x, s.getBuffSpec m = .ok (some x) → SaneEffect x
  debuff : ∀ m x, s.getDebuffSpec m = .ok (some x) → SaneEffect x

/-- The skill names the gauges it changes as the job class declares them. -/
def KnownGauges (lib : SkillLibrary) (job : String) (s : SkillCore) : Prop :=
  ∀ m specs, s.getJobResourceSpec m = .ok specs → ∀ r ∈ specs, r.clearAllResourcesOnly = false →
    ∃ settings, lib.getAllResourceSettings job = .ok settings ∧ r.name ∈ Dict.keys settings

/-- The combo actions of the skill are skills of the job class. -/
def KnownCombos (lib : SkillLibrary) (job : String) (s : SkillCore) : Prop :=
  ∀ m specs, s.getComboSpec m = .ok specs → ∀ c ∈ specs, ∀ a ∈ c.comboActions,
    lib.hasSkill a job = .ok true

/-- Something named `a` is performed by the job class: a skill of its own, or a follow-up of one. -/
def Performs (lib : SkillLibrary) (job a : String) : Prop :=
  (∃ s, lib.getSkill a job = .ok s) ∨
  ∃ n s m fs, ∃ f ∈ fs, lib.getSkill n job = .ok s ∧ s.getFollowUpSkills m = .ok fs ∧ f.skill.name = a

/-- An effect the skill gives that is restricted to certain skills can be had by one of them. -/
def UsefulEffects (lib : SkillLibrary) (job : String) (s : SkillCore) : Prop :=
  ∀ m e, (s.getBuffSpec m = .ok (some e) ∨ s.getDebuffSpec m = .ok (some e)) →
    ∀ l, e.skillAllowlist = some l → ∃ a ∈ l, Performs lib job a

/-- The skill, or one of its follow-ups, gives a buff with this name when the skill is used without
conditions. -/
def GivesBuff (s : Skill) (a : String) : Prop :=
  ∃ (k : SkillCore) (e : StatusEffectSpec),
    (k = s.toSkillCore ∨ ∃ fs, s.getFollowUpSkills {} = .ok fs ∧ ∃ f ∈ fs, f.skill = k) ∧
    k.name = a ∧ k.getBuffSpec {} = .ok (some e)

/-- Skills of the job class give the buff. -/
def HasBuff (lib : SkillLibrary) (job a : String) : Prop :=
  ∃ name s, lib.getSkill name job = .ok s ∧ GivesBuff s a

/-- The buff or the debuff that the skill gives under some conditions ends effects named `a`. -/
def Ends (s : SkillCore) (a : String) : Prop :=
  ∃ m e, (s.getBuffSpec m = .ok (some e) ∨ s.getDebuffSpec m = .ok (some e)) ∧ a ∈ e.expiresStatusEffects

/-- The skill itself, or a follow-up of it. -/
def PartOf (s : Skill) (k : SkillCore) : Prop :=
  s.toSkillCore = k ∨ ∃ m fs, s.getFollowUpSkills m = .ok fs ∧ ∃ f ∈ fs, f.skill = k

/-- The effect changes no number, forces and forbids no hits, and ends no effects. -/
def Idle (e : StatusEffectSpec) : Prop :=
  (e.critRateAdd = 0 ∧ e.dhRateAdd = 0 ∧ e.damageMult = 1 ∧ e.mainStatAdd = 0 ∧ e.mainStatMult = 1) ∧
  (e.autoAttackDelayReduction = 0 ∧ e.hasteTimeReduction = 0 ∧ e.flatCastTimeReduction = 0 ∧
    e.flatGcdRecastTimeReduction = 0) ∧
  e.guaranteedCrit = .default ∧ e.guaranteedDh = .default ∧ e.expiresStatusEffects = [] ∧
  e.clearAllStatusEffects = false

/-- The table has a variant for conditions among which is this one. -/
def Keyed {α : Type} (c : Cond α) (a : String) : Prop :=
  ∃ d : Dict Conds α, c = .dict d ∧ ∃ kv ∈ d, a ∈ kv.1

/-- One of the tables has a variant for conditions among which is this one. -/
def Minds (k : SkillCore) (a : String) : Prop :=
  Keyed k.damageSpec a ∨ Keyed k.timingSpec a ∨ Keyed k.buffSpec a ∨ Keyed k.debuffSpec a ∨
    Keyed k.jobResourceSpec a ∨ Keyed k.comboSpec a

/-- The same of a skill, which also has a table of follow-ups. -/
def MindsAny (s : Skill) (a : String) : Prop := Minds s.toSkillCore a ∨ Keyed s.followUpSkills a

/-- The effect is for skills of this name. -/
def IsFor (e : StatusEffectSpec) (name : String) : Prop := ∀ l, e.skillAllowlist = some l → name ∈ l

/-- The effect is for the skill or one of its follow-ups, which has a variant for the condition `a`. -/
def ReactsTo (s : Skill) (a : String) (e : StatusEffectSpec) : Prop :=
  (IsFor e s.name ∧ MindsAny s a) ∨
  ∃ m fs, s.getFollowUpSkills m = .ok fs ∧ ∃ f ∈ fs, IsFor e f.skill.name ∧ Minds f.skill a

/-- The effects of the skill do something: they do so by themselves, or they are told, as a condition, to
a skill of the job class that has a variant for it. -/
def DoSomething (lib : SkillLibrary) (job : String) (k : SkillCore) : Prop :=
  ∀ m e, (k.getBuffSpec m = .ok (some e) ∨ k.getDebuffSpec m = .ok (some e)) → Idle e →
    e.addToSkillModifierCondition = true ∧
      ∃ name s, lib.getSkill name job = .ok s ∧ ReactsTo s k.name e

/-- The condition by which skills are told an amount in the gauge. -/
def TellsGauge (g : String) (st : JobResourceSettings) (c : String) : Prop :=
  if st.addNumberToConditional then ∃ n : ℤ, c = toString n ++ " " ++ g else c = g

/-- The damage of the skill drops by the fraction `x` on the targets after the first: under the same other
conditions, the potency on target 2 to 9 is `1 - x` times that on the first. -/
def DropsOff (s : SkillCore) (x : ℚ) : Prop :=
  ∀ (m mt : SkillModifier) (n : ℕ) (spec : DamageSpec), 2 ≤ n → n ≤ 9 →
    (∀ k, 2 ≤ k → k ≤ 9 → targetCond k ∉ m.withCondition) →
    mt.withCondition = insert (targetCond n) m.withCondition →
    s.getDamageSpec m = .ok (some spec) →
    s.getDamageSpec mt = .ok (some { spec with potency := (1 - x) * spec.potency })

/-- Skills that declare a drop-off but give one damage spec instead of a table. -/
def dropoffLost (job : String) : List String :=
  if job = "BLM" then ["Foul"]
  else if job = "RDM" then ["Prefulgence", "Resolution", "Scorch", "Verflare", "Verholy", "Vice of Thorns"]
  else if job = "PCT" then ["Clawed Muse", "Comet in Black", "Fanged Muse", "Hammer Brush", "Hammer Stamp",
    "Holy in White", "Mog of the Ages", "Polishing Hammer", "Pom Muse", "Rainbow Drip",
    "Retribution of the Madeen", "Star Prism", "Winged Muse"]
  else if job = "DRG" then ["Dragonfire Dive", "Geirskogul", "Nastrond", "Rise of the Dragon", "Starcross",
    "Stardiver", "Wyrmwind Thrust"]
  else if job = "MNK" then ["Elixir Burst", "Elixir Field", "Fire's Reply", "Phantom Rush", "Rising Phoenix",
    "Wind's Reply"]
  else if job = "NIN" then ["Tenri Jindo"]
  else if job = "RPR" then ["Communio", "Gluttony", "Harvest Moon", "Perfectio", "Sacrificium"]
  else if job = "SAM" then ["Hissatsu: Guren", "Kaeshi: Namikiri", "Ogi Namikiri", "Shoha", "Zanshin"]
  else if job = "VPR" then ["First Legacy", "Fourth Legacy", "Ouroboros", "Reawaken", "Second Legacy",
    "Third Legacy"]
  else []

/-- The skill hits like an auto-attack: it has no cast time, the same delay under all conditions, is no GCD,
and deals auto-attack damage. -/
structure LikeAuto (s : Skill) : Prop where
  gcd : s.isGCD = some false
  damage : ∀ m, ∃ d, s.getDamageSpec m = .ok (some d) ∧ d.damageClass = .auto ∧ 0 < d.potency
  timing : ∀ m, ∃ t, s.getTimingSpec m = .ok (some t) ∧ t.baseCastTime = 0
  delay : ∃ t, s.timingSpec = .single (some t)

end Ama.Spec
