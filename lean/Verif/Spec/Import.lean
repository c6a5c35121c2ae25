import Verif.Model.CsvUtils
import Verif.Spec.Builder

/-!
# Specification vocabulary for importing rotations
-/

namespace Ama.Spec

/-- A cell that is left empty stands for the default. -/
def orDefault (cell : String) : Option String := if cell = "" then none else some cell

/-- The call of `add` that a row of a table stands for. -/
def rowCall (t : CsvTable) (c : CsvCells) : AddCall :=
  { t := c.time
    skillName := c.skillName
    modifier := (orDefault c.skillConditional).map (fun s => SkillModifier.make s)
    jobClass := orDefault c.jobClass
    targets := if t.hasTargets then orDefault c.targets else none }

end Ama.Spec
