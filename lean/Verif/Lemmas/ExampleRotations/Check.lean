import Verif.Lemmas.ExampleRotations.Rows
import Verif.Lemmas.GameData.Facts

/-!
# A check of the example rotations
-/

namespace Ama.ExampleRotations

open GameData Spec

/-- The listed version at a position. -/
def textOf (e : Env) : String :=
  if e.pos = 1 then "6.55" else if e.pos = 3 then "7.0" else if e.pos = 5 then "7.01" else if e.pos = 7 then "7.05"
  else "7.1"

/-- The skill deals the same damage under all conditions. -/
def hurtsAlways (r : RawSkill) : Bool :=
  match mkSkill r with
  | .ok s => match s.damageSpec with
    | .single (some _) => true
    | _ => false
  | .error _ => false

/-- The skill and its follow-ups change no gauge. -/
def noGauge (r : RawSkill) : Bool :=
  match mkSkill r with
  | .ok s => (match s.jobResourceSpec with
      | .single [] => true
      | _ => false) &&
    s.followUpSkills.values.all (fun fs => fs.all (fun f => match f.skill.jobResourceSpec with
      | .single [] => true
      | _ => false))
  | .error _ => false

/-- The names of generic skills that occur in the rotations. -/
def genericName (e : Env) (n : String) : Bool :=
  decide (n = "Grade 8 Tincture") || (decide (n = "Grade 2 Gemdraught") && e.ge .p705) || decide (n = "Wait 0.90s")

/-- The skill of a party member is that of another job, without a modifier, and changes no gauge. -/
def guestOk (e : Env) (own : String) (p : PartySkill) : Bool :=
  decide (p.modifier = none) && decide (p.jobClass ≠ own) && decide (p.jobClass ≠ "MCH") &&
  decide (p.jobClass ∉ ["MNK", "VPR"]) &&
  (jobClasses e).any (fun j => decide (j.jobClass = p.jobClass) &&
    (rawsOf j).any (fun r => decide (r.name = p.skillName) && noGauge r))

/-- The times of the party skills differ. -/
def timesOk (ps : List PartySkill) : Bool := decide (ps.map (fun p => (pyInt (1000 * p.t), p.skillName))).Nodup

/-- The stats can be made, and the weapon is not too fast. -/
def statsOk (s : RotationStats) : Bool :=
  match statsOf "6.55" s with
  | .ok x => decide (100 ≤ (pyInt (1000 * x.weaponDelay) : ℚ) * (1 - x.processed.traitAutoAttackDelayReduction)) &&
      decide (s.healerOrCasterStrength = none)
  | .error _ => false

/-- The rotation can be built and its skills are in the library; except for Machinists, one is known to deal
damage. -/
def rowOk (e : Env) (r : Row) : Bool :=
  let d := r.2.2
  statsOk d.stats && decide (r.1 = true ↔ d.stats.jobClass ∉ ["WHM", "SGE", "AST"]) &&
  (d.partySkills.getD []).all (guestOk e d.stats.jobClass) && timesOk (d.partySkills.getD []) &&
  (jobClasses e).any (fun j => decide (j.jobClass = d.stats.jobClass) &&
    (let raws := rawsOf j
     d.skills.all (fun n => genericName e n || raws.any (fun r => decide (r.name = n))) &&
     (decide (d.stats.jobClass = "MCH") ||
      d.skills.any (fun n => raws.any (fun r => decide (r.name = n) && hurtsAlways r)))))

/-- All rotations that are offered pass the check. -/
def rowsOk (e : Env) : Bool := (rows (textOf e) e.level.toNat).all (rowOk e)

theorem checked : ∀ e ∈ listed, rowsOk e = true := by decide +kernel

end Ama.ExampleRotations
