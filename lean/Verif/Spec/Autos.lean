import Verif.Spec.Builder
import Verif.Spec.Timeline

/-!
# Specification of auto-attacks
-/

namespace Ama.Spec

/-- The specification makes somebody faster. -/
def Speeds (spec : Option StatusEffectSpec) : Prop :=
  ∃ s, spec = some s ∧ (0 < s.autoAttackDelayReduction ∨ 0 < s.hasteTimeReduction ∨
    0 < s.flatCastTimeReduction)

/-- The event gives an effect that makes somebody faster. -/
def SpeedEvent (e : Event) : Prop :=
  ∃ buff debuff, e.skill.getBuffSpec e.modifier = .ok buff ∧
    e.skill.getDebuffSpec e.modifier = .ok debuff ∧ (Speeds buff ∨ Speeds debuff)

open Classical in
/-- `buffs` and `debuffs` are what a status effect tracker reports at time `t` that got exactly the
effects of those events, applied up to then, that make somebody faster, in the order of their times.
(The tracker is asked on behalf of the last of these skills, not of the auto-attack.) -/
def SpeedAt (rb : RotationBuilder) (events : List Event) (t : ℚ) (auto : Skill)
    (buffs debuffs : StatusEffects) : Prop :=
  ∃ order : List Event,
    order.Perm (events.filter (fun e => decide (SpeedEvent e ∧ appliedAt e ≤ t))) ∧
    order.Pairwise (fun a b => appliedAt a ≤ appliedAt b) ∧
    ∃ se se1 se2 cb cd,
      order.foldlM (fun (se : StatusEffectTracker) e =>
        (se.expire (appliedAt e)).add (appliedAt e) e.skill.toSkillCore {} [rb.defaultTarget])
        { priority := rb.priority } = .ok se ∧
      (se.expire t).compileBuffs t ((order.map (·.skill)).getLast?.getD auto).toSkillCore =
        .ok ((buffs, cb), se1) ∧
      se1.compileDebuffs t ((order.map (·.skill)).getLast?.getD auto).toSkillCore =
        .ok ((debuffs, cd), se2)

/-- The event of an auto-attack at time `t` on the target. -/
structure AutoEvent (auto : Skill) (delay t : ℚ) (target : String) (e : Event) : Prop where
  primary : e.primary = t
  applied : appliedAt e = t + delay
  skill : e.skill = auto
  modifier : e.modifier = {}
  buffs : e.snapshotBuffs = .flag true
  debuffs : e.snapshotDebuffs = .flag true
  targets : e.targets = [target]

/-- `t'` is `t`, or the end of a downtime window of the target in which `t` lies. -/
def Forwarded (rb : RotationBuilder) (target : String) (t t' : ℚ) : Prop :=
  (¬ Covered (downtimeOf rb target) t .auto ∧ t' = t) ∨
  ∃ w ∈ downtimeOf rb target, w.start ≤ t ∧ t < w.stop ∧
    (w.damageClass = none ∨ w.damageClass = some .auto) ∧ t' = w.stop

/-- `t'` is `t`, or the latest end of the periods in which `t` lies. -/
def Skipped (periods : List (ℚ × WithTop ℚ)) (t : ℚ) (t' : WithTop ℚ) : Prop :=
  ((∀ p ∈ periods, ¬ (p.1 ≤ t ∧ (t : WithTop ℚ) ≤ p.2)) ∧ t' = t) ∨
  IsGreatest {x | ∃ p ∈ periods, p.1 ≤ t ∧ (t : WithTop ℚ) ≤ p.2 ∧ x = p.2} t'

/-- The time between two auto-attacks: the delay of the weapon, shortened by the trait and by the
effects, in whole hundredths of a second. -/
def autoStep (rb : RotationBuilder) (buffs debuffs : StatusEffects) : ℚ :=
  10 * ⌊(pyInt (1000 * rb.stats.weaponDelay) : ℚ) *
    (1 - rb.stats.processed.traitAutoAttackDelayReduction) * buffs.autoAttackDelayMult *
    debuffs.autoAttackDelayMult / 10⌋

/-- Auto-attacks at the given times and targets, from time `t` on: each comes one step after the one
before, or later if that is in a downtime of the target or in one of the periods; none is applied at or
after `last`. -/
inductive Autos (rb : RotationBuilder) (auto : Skill) (delay last : ℚ) (periods : List (ℚ × WithTop ℚ)) :
    List Event → WithTop ℚ → List (ℚ × String) → Prop
  | stop (events : List Event) (t : WithTop ℚ) :
    (∀ x : ℚ, t = x → last ≤ x + delay) → Autos rb auto delay last periods events t []
  | auto (events : List Event) (t : ℚ) (target : String) (e : Event) (buffs debuffs : StatusEffects)
      (t1 : ℚ) (t2 : WithTop ℚ) (rest : List (ℚ × String)) :
    t + delay < last → AutoEvent auto delay t target e →
    SpeedAt rb (e :: events) t auto buffs debuffs →
    Forwarded rb target (t + autoStep rb buffs debuffs) t1 → Skipped periods t1 t2 →
    Autos rb auto delay last periods (e :: events) t2 rest →
    Autos rb auto delay last periods events t ((t, target) :: rest)

/-- The target of a latest press at or before `t`; if there is none, of a first press. -/
def TargetAt (presses : List (ℚ × String)) (t : ℚ) (target : String) : Prop :=
  (∃ s ∈ presses, s.2 = target ∧ s.1 ≤ t ∧ ∀ s' ∈ presses, s'.1 ≤ t → s'.1 ≤ s.1) ∨
  ((∀ s ∈ presses, t < s.1) ∧ ∃ s ∈ presses, s.2 = target ∧ ∀ s' ∈ presses, s.1 ≤ s'.1)

/-- The auto-attack of the job and the time from its snapshot to its hit: "Shot" if the library has it,
else "Auto". -/
def AutoSkill (rb : RotationBuilder) (skill : Skill) (delay : ℚ) : Prop :=
  ((rb.lib.hasSkill "Shot" rb.stats.jobClass = .ok true ∧
      rb.lib.getSkill "Shot" rb.stats.jobClass = .ok skill) ∨
    (rb.lib.hasSkill "Shot" rb.stats.jobClass = .ok false ∧
      rb.lib.getSkill "Auto" rb.stats.jobClass = .ok skill)) ∧
  ∃ ts, skill.timingSpec = .single (some ts) ∧ ts.applicationDelay = delay

/-- The builder after the presses and the dots have been processed: its timeline holds everything but
the auto-attacks. -/
def beforeAutos (rb : RotationBuilder) : Py RotationBuilder := do
  let rb ← afterPresses rb
  rb.processAllDots (if rb.ignoreTrailingDots then rb.events.getLastEventTime else none)

/-- The times at which events are applied. -/
def eventTimes (evs : Events) : Set ℚ := {x | ∃ e ∈ evs.q, appliedAt e = x}

/-- `l` is the time of the last event; dots do not count if trailing dots are ignored. -/
def LastEvent (rb rb₁ : RotationBuilder) (l : ℚ) : Prop :=
  (rb.ignoreTrailingDots = false → IsGreatest (eventTimes rb₁.events) l) ∧
  (rb.ignoreTrailingDots = true → ∃ rb₀, afterPresses rb = .ok rb₀ ∧
    (rb₀.events.q ≠ [] → IsGreatest (eventTimes rb₀.events) l))

/-- `e'` is `e` moved `δ` earlier, possibly with fewer targets. -/
structure Shifted (δ : ℚ) (e e' : Event) : Prop where
  primary : e'.primary = e.primary - δ
  applied : appliedAt e' = appliedAt e - δ
  skill : e'.skill = e.skill
  modifier : e'.modifier = e.modifier
  buffs : e'.snapshotBuffs = e.snapshotBuffs
  debuffs : e'.snapshotDebuffs = e.snapshotDebuffs
  targets : e'.targets.Sublist e.targets

/-- No effect of the skill makes auto-attacks come before the previous one. -/
def Moderate (skill : Skill) : Prop :=
  ∀ m s, (skill.getBuffSpec m = .ok (some s) ∨ skill.getDebuffSpec m = .ok (some s)) →
    s.autoAttackDelayReduction ≤ 1

end Ama.Spec
