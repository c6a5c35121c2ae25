import Verif.Lemmas.GameData.Check
import Verif.Model.GameData.Blm

/-!
# BLM: the class description passes the check for all listed versions
-/

namespace Ama.GameData.Blm

theorem checked : ∀ e ∈ listed, check (exempt "BLM" e.level) (job e) = true := by
  decide +kernel

end Ama.GameData.Blm
