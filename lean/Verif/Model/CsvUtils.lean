import Verif.Model.RotationBuilder

/-!
# Model of `simulator/rotation_import_utils/csv_utils.py`

Not modelled: pandas parsing the text of a file into cells.  A file is its table of cells.
-/

namespace Ama

/-- The cells of one row of the parsed file (csv_utils.py:19, 30-34), column names in lower case. -/
structure CsvCells where
  time : ℚ
  skillName : String
  jobClass : String
  skillConditional : String
  targets : String := ""

/-- What `pd.read_csv` gives for a file: whether there is a column `targets`, and the rows. -/
structure CsvTable where
  hasTargets : Bool
  rows : List CsvCells

/-- csv_utils.py:7-10 `RotationCSV` -/
structure RotationCSV where
  t : ℚ
  skillName : String
  jobClass : Option String
  skillConditional : String
  targets : Option String
deriving DecidableEq

namespace CsvUtils

/-- csv_utils.py:29-42: one pass of the loop -/
def readRow (hasTargets : Bool) (c : CsvCells) : RotationCSV :=
  { t := c.time
    skillName := c.skillName
    jobClass := if c.jobClass = "" then none else some c.jobClass
    skillConditional := c.skillConditional
    targets := if !hasTargets || decide (c.targets = "") then none else some c.targets }

/-- csv_utils.py:15-43 `read_rotation_from_csv`; `none` is a file that is not there. -/
def readRotationFromCsv (file : Option CsvTable) : List RotationCSV :=
  match file with
  | none => []
  | some t => t.rows.foldl (fun res c => res ++ [readRow t.hasTargets c]) []

/-- csv_utils.py:48-60: one pass of the loop (`skill_conditional` is never `None` after reading) -/
def addRow (rb : RotationBuilder) (sk : RotationCSV) : Py RotationBuilder :=
  let modifier : Option SkillModifier :=
    if sk.skillConditional = "" then none
    else some { withCondition := Utils.canonicalizeCondition sk.skillConditional }
  rb.add sk.t sk.skillName modifier sk.jobClass sk.targets

/-- csv_utils.py:45-61 `populate_rotation_from_csv`.  When a row raises, the rows before it have been
added to the caller's builder; the model returns the exception only. -/
def populateRotationFromCsv (rb : RotationBuilder) (file : Option CsvTable) :
    Py (RotationBuilder × List RotationCSV) := do
  let allSkills := readRotationFromCsv file
  let rb ← allSkills.foldlM addRow rb
  return (rb, allSkills)

end CsvUtils

end Ama
