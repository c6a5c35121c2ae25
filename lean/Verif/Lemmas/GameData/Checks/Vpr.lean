import Verif.Lemmas.GameData.Check
import Verif.Model.GameData.Vpr

/-!
# VPR: the class description passes the check for all listed versions
-/

namespace Ama.GameData.Vpr

theorem checked : ∀ e ∈ listed7, check (exempt "VPR" e.level) (job e) = true := by
  decide +kernel

end Ama.GameData.Vpr
