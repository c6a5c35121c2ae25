import Verif.Lemmas.GameData.Check
import Verif.Model.GameData.Pld

/-!
# PLD: the class description passes the check for all listed versions
-/

namespace Ama.GameData.Pld

theorem checked : ∀ e ∈ listed, check (exempt "PLD" e.level) (job e) = true := by
  decide +kernel

end Ama.GameData.Pld
