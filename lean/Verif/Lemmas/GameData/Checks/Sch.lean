import Verif.Lemmas.GameData.Check
import Verif.Model.GameData.Sch

/-!
# SCH: the class description passes the check for all listed versions
-/

namespace Ama.GameData.Sch

theorem checked : ∀ e ∈ listed, check (exempt "SCH" e.level) (job e) = true := by
  decide +kernel

end Ama.GameData.Sch
