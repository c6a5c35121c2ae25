import Verif.Lemmas.GameData.Check
import Verif.Model.GameData.Sge

/-!
# SGE: the class description passes the check for all listed versions
-/

namespace Ama.GameData.Sge

theorem checked : ∀ e ∈ listed, check (exempt "SGE" e.level) (job e) = true := by
  decide +kernel

end Ama.GameData.Sge
