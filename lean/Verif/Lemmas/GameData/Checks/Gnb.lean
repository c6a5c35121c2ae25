import Verif.Lemmas.GameData.Check
import Verif.Model.GameData.Gnb

/-!
# GNB: the class description passes the check for all listed versions
-/

namespace Ama.GameData.Gnb

theorem checked : ∀ e ∈ listed, check (exempt "GNB" e.level) (job e) = true := by
  decide +kernel

end Ama.GameData.Gnb
