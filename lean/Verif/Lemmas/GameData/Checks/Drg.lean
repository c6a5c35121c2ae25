import Verif.Lemmas.GameData.Check
import Verif.Model.GameData.Drg

/-!
# DRG: the class description passes the check for all listed versions
-/

namespace Ama.GameData.Drg

theorem checked : ∀ e ∈ listed, check (exempt "DRG" e.level) (job e) = true := by
  decide +kernel

end Ama.GameData.Drg
