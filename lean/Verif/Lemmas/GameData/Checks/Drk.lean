import Verif.Lemmas.GameData.Check
import Verif.Model.GameData.Drk

/-!
# DRK: the class description passes the check for all listed versions
-/

namespace Ama.GameData.Drk

theorem checked : ∀ e ∈ listed, check (exempt "DRK" e.level) (job e) = true := by
  decide +kernel

end Ama.GameData.Drk
