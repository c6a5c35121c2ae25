import Verif.Spec.Builder
import Verif.Spec.Rename
import Verif.Spec.GameData

/-!
# A rotation with other names for the targets
-/

namespace Ama.Spec

/-- A name of one target: no list of several names, and without blanks around it. -/
def OneTarget (s : String) : Prop := RotationBuilder.splitTargets s = [s]

/-- The argument `targets` of the second call names the targets of the first one by their other names. -/
def RenamedTargets (f : String → String) : Option String → Option String → Prop
  | none, none => True
  | some s, some s' => RotationBuilder.splitTargets s' = (RotationBuilder.splitTargets s).map f
  | _, _ => False

/-- The second call is the first one, with other names for the targets. -/
def BuilderOp.Renamed (f : String → String) : BuilderOp → BuilderOp → Prop
  | .addNext name m job n targets, .addNext name' m' job' n' targets' =>
    name' = name ∧ m' = m ∧ job' = job ∧ n' = n ∧ RenamedTargets f targets targets'
  | .add t name m job targets, .add t' name' m' job' targets' =>
    t' = t ∧ name' = name ∧ m' = m ∧ job' = job ∧ RenamedTargets f targets targets'
  | .setTrailing b, .setTrailing b' => b' = b
  | .setAutos b, .setAutos b' => b' = b
  | .timing fuel, .timing fuel' => fuel' = fuel
  | _, _ => False

/-- The downtime, with other names for the targets. -/
def renameRawDowntime (f : String → String) : RawDowntime → RawDowntime
  | .tuple ws => .tuple ws
  | .dict d => .dict (d.map (fun kv => (f kv.1, kv.2)))

/-- If one skill is used twice at the same time, with the same conditions and job class, then the other names of the
targets sort like the first ones.  (Just for skills used at a given time.) -/
def TiesKept (f : String → String) (rb : RotationBuilder) : Prop :=
  ∀ p ∈ rb.qTimed, ∀ q ∈ rb.qTimed, p.t = q.t → p.skill = q.skill → p.modifier.pyEq q.modifier = true →
    p.jobClass = q.jobClass → (p.targets.map f < q.targets.map f ↔ p.targets < q.targets)

/-- A debuff that the presses of a rotation do not notice: it adds no condition, is not used up, forces no hits, and
changes neither the time between auto-attacks nor recast times. -/
structure SilentDebuff (e : StatusEffectSpec) : Prop where
  condition : e.addToSkillModifierCondition = false
  uses : e.numUses = ⊤
  maxUses : e.maxNumUses = ⊤
  crit : e.guaranteedCrit = .default
  dh : e.guaranteedDh = .default
  delay : e.autoAttackDelayReduction = 0
  haste : e.hasteTimeReduction = 0

/-- All debuffs of skills of the library and their follow-ups are silent, and no buff of one ends a debuff. -/
def QuietDebuffs (lib : SkillLibrary) : Prop :=
  ∀ name job s k, lib.getSkill name job = .ok s → PartOf s k →
    (∀ m e, k.getDebuffSpec m = .ok (some e) → SilentDebuff e) ∧
    ∀ m e, k.getBuffSpec m = .ok (some e) → ∀ name' job' s' k', lib.getSkill name' job' = .ok s' → PartOf s' k' →
      k'.name ∈ e.expiresStatusEffects → ∀ m' e', k'.getDebuffSpec m' ≠ .ok (some e')

end Ama.Spec
