import Verif.Model.ExampleRotations.Library
import Verif.Spec.Builder

/-!
# Specification vocabulary for the example rotations
-/

namespace Ama.Spec

open ExampleRotations

/-- The example rotations of a version and level, in order, with their job classes. -/
def exampleNames (version : String) (level : ℕ) : List (String × String) :=
  if level = 90 then
    if version = "6.55" then
      [("WAR", "WAR"), ("WAR Party Buffs", "WAR"), ("PLD", "PLD"), ("GNB", "GNB"), ("DRK", "DRK"), ("WHM", "WHM"),
       ("SGE", "SGE"), ("SCH", "SCH"), ("BRD", "BRD"), ("DNC", "DNC"), ("MCH", "MCH"), ("BLM", "BLM"),
       ("RDM", "RDM"), ("SMN", "SMN"), ("DRG", "DRG"), ("MNK", "MNK"), ("NIN", "NIN"), ("RPR", "RPR"),
       ("SAM", "SAM")]
    else if version < "7.05" then
      [("WAR", "WAR"), ("WAR Party Buffs", "WAR"), ("PLD", "PLD"), ("BRD", "BRD"), ("DNC", "DNC"), ("MCH", "MCH")]
    else
      [("WAR", "WAR"), ("WAR Party Buffs", "WAR"), ("PLD", "PLD"), ("BRD", "BRD"), ("DNC", "DNC"), ("MCH", "MCH"),
       ("PCT", "PCT"), ("VPR", "VPR")]
  else if version < "7.05" then []
  else
    [("WAR", "WAR"), ("PLD", "PLD"), ("GNB", "GNB"), ("DRK", "DRK"), ("WHM", "WHM"), ("SGE", "SGE"),
     ("SCH", "SCH"), ("AST", "AST"), ("BRD", "BRD"), ("DNC", "DNC"), ("MCH", "MCH"), ("BLM", "BLM"),
     ("PCT", "PCT"), ("PCT 7.0", "PCT"), ("RDM", "RDM"), ("SMN", "SMN"), ("DRG", "DRG"), ("MNK", "MNK"),
     ("NIN", "NIN"), ("RPR", "RPR"), ("SAM", "SAM"), ("VPR", "VPR"), ("VPR 7.0", "VPR")]

/-- The data describes a rotation of that name for that level. -/
def ExampleData (name : String) (level : ℕ) (d : RotationData) : Prop :=
  ∃ x ∈ allRotations, ∃ ds, (name, ds) ∈ x.2 ∧ (level, d) ∈ ds

/-- The press is that of the named skill of the job class, as it is used when nothing else is said. -/
structure PlainPress (lib : SkillLibrary) (job name : String) (p : SeqPress) : Prop where
  skill : lib.getSkill name job = .ok p.skill
  job : p.jobClass = job
  modifier : p.modifier = {}
  targets : p.targets = [SimConsts.DEFAULT_TARGET]

/-- The press is that of the skill of a party member at its time, as it is used by other jobs. -/
structure PartyPress (lib : SkillLibrary) (x : PartySkill) (p : TimedPress) : Prop where
  time : p.t = pyInt (1000 * x.t)
  skill : lib.getSkill x.skillName x.jobClass = .ok p.skill
  job : p.jobClass = x.jobClass
  modifier : p.modifier = SkillModifier.make p.skill.offClassDefaultCondition
  targets : p.targets = [SimConsts.DEFAULT_TARGET]

/-- The builder does what the data says: its stats are those of the data, it presses the listed skills one
after the other, and those of the party at their times; dots are cut off at the end, the downtime is empty,
and auto-attacks are enabled except for White Mages, Sages and Astrologians. -/
structure ExampleOf (lib : SkillLibrary) (version : String) (d : RotationData) (rb : RotationBuilder) : Prop where
  built : Built rb
  library : rb.lib = lib
  stats : ∃ delay, (d.stats.weaponDelay = some delay ∨
      (d.stats.weaponDelay = none ∧ Dict.get? GameConsts.WEAPON_DELAYS d.stats.jobClass = some delay)) ∧
    mkStats {
      wd := d.stats.wd, weaponDelay := some delay, mainStat := d.stats.mainStat, detStat := d.stats.detStat,
      critStat := d.stats.critStat, dhStat := d.stats.dhStat, speedStat := d.stats.speedStat,
      tenacity := d.stats.tenacity, jobClass := d.stats.jobClass, version := version, level := 90
      healerOrCasterStrength := Dict.get? [("SCH", 351), ("WHM", 214), ("SGE", 234), ("AST", 195), ("SMN", 351),
        ("RDM", 214), ("BLM", 175), ("PCT", 214)] d.stats.jobClass } = .ok rb.stats
  presses : List.Forall₂ (PlainPress lib d.stats.jobClass) d.skills rb.qSequence
  party : List.Forall₂ (PartyPress lib) (d.partySkills.getD []) rb.qTimed
  autos : rb.enableAutos = true ↔ d.stats.jobClass ∉ ["WHM", "SGE", "AST"]
  trailing : rb.ignoreTrailingDots = true
  snapshot : rb.snapDots = some 0
  start : rb.fightStart = none
  downtime : rb.downtime = .tuple []
  target : rb.defaultTarget = SimConsts.DEFAULT_TARGET

end Ama.Spec
