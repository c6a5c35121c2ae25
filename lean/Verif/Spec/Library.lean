import Verif.Model.SkillLibrary

/-!
# Specification vocabulary for the skill library
-/

namespace Ama.Spec

/-- A public call that changes a library. -/
inductive LibOp
  | setJob (job : String)
  | addSkill (s : Skill)
  | addResource (name : String) (settings : JobResourceSettings)
  | addComboBreaker (group : ℤ) (breakers : List ℤ)
  | setPriority (p : List String)
  | addAll (c : ClassSkills)

/-- Perform one call. -/
def LibOp.run (lib : SkillLibrary) : LibOp → Py SkillLibrary
  | .setJob j => .ok (lib.setCurrentJobClass j)
  | .addSkill s => lib.addSkill s
  | .addResource n r => lib.addResource n r
  | .addComboBreaker g b => lib.addComboBreaker g b
  | .setPriority p => .ok (lib.setStatusEffectPriority p)
  | .addAll c => lib.addAllSkillsFrom c

/-- The job class in force after a call, given the one before. -/
def LibOp.job (job : Option String) : LibOp → Option String
  | .setJob j => some j
  | .addAll c => some c.jobClass
  | _ => job

/-- The job class in force after some calls. -/
def jobAfter (job : Option String) (ops : List LibOp) : Option String := ops.foldl LibOp.job job

/-- The skills a call adds, each with the job class it is added under. -/
def LibOp.skills (job : Option String) : LibOp → List (String × Skill)
  | .addSkill s => job.toList.map (fun j => (j, s))
  | .addAll c => c.skills.map (fun s => (c.jobClass, s))
  | _ => []

/-- The skills added by some calls, in order. -/
def skillsAdded (job : Option String) : List LibOp → List (String × Skill)
  | [] => []
  | op :: ops => op.skills job ++ skillsAdded (op.job job) ops

/-- The resource settings a call makes: job class, resource, settings. -/
def LibOp.resources (job : Option String) : LibOp → List (String × String × JobResourceSettings)
  | .addResource n r => job.toList.map (fun j => (j, n, r))
  | .addAll c => c.resources.map (fun r => (c.jobClass, r.1, r.2))
  | _ => []

/-- The resource settings made by some calls, in order. -/
def resourcesAdded (job : Option String) : List LibOp → List (String × String × JobResourceSettings)
  | [] => []
  | op :: ops => op.resources job ++ resourcesAdded (op.job job) ops

/-- The combo breakers a call sets: job class, combo group, groups it breaks. -/
def LibOp.breakers (job : Option String) : LibOp → List (String × ℤ × List ℤ)
  | .addComboBreaker g b => job.toList.map (fun j => (j, g, b))
  | .addAll c => (c.comboBreakers.getD []).map (fun b => (c.jobClass, b.1, b.2))
  | _ => []

/-- The combo breakers set by some calls, in order. -/
def breakersAdded (job : Option String) : List LibOp → List (String × ℤ × List ℤ)
  | [] => []
  | op :: ops => op.breakers job ++ breakersAdded (op.job job) ops

/-- The priorities a call sets. -/
def LibOp.priorities (job : Option String) : LibOp → List (String × List String)
  | .setPriority p => job.toList.map (fun j => (j, p))
  | .addAll c => c.priority.toList.map (fun p => (c.jobClass, p))
  | _ => []

/-- The priorities set by some calls, in order. -/
def prioritiesSet (job : Option String) : List LibOp → List (String × List String)
  | [] => []
  | op :: ops => op.priorities job ++ prioritiesSet (op.job job) ops

/-- The last entry satisfying `p`. -/
def lastWith {α : Type} (p : α → Bool) (l : List α) : Option α := (l.filter p).getLast?

/-- The library results from a fresh one by these calls, none of which raised. -/
def LibOf (ops : List LibOp) (lib : SkillLibrary) : Prop :=
  ∃ version level, ops.foldlM LibOp.run { version := version, level := level } = .ok lib

end Ama.Spec
