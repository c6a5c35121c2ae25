import Verif.Lemmas.GameData.Check
import Verif.Model.GameData.Rdm

/-!
# RDM: the class description passes the check for all listed versions
-/

namespace Ama.GameData.Rdm

theorem checked : ∀ e ∈ listed, check (exempt "RDM" e.level) (job e) = true := by
  decide +kernel

end Ama.GameData.Rdm
