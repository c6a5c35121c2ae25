import Verif.Lemmas.GameData.Check
import Verif.Model.GameData.Brd

/-!
# BRD: the class description passes the check for all listed versions
-/

namespace Ama.GameData.Brd

theorem checked : ∀ e ∈ listed, check (exempt "BRD" e.level) (job e) = true := by
  decide +kernel

end Ama.GameData.Brd
