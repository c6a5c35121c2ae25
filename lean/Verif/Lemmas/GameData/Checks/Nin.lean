import Verif.Lemmas.GameData.Check
import Verif.Model.GameData.Nin

/-!
# NIN: the class description passes the check for all listed versions
-/

namespace Ama.GameData.Nin

theorem checked : ∀ e ∈ listed, check (exempt "NIN" e.level) (job e) = true := by
  decide +kernel

end Ama.GameData.Nin
