import Verif.Lemmas.GameData.Check
import Verif.Model.GameData.Sam

/-!
# SAM: the class description passes the check for all listed versions
-/

namespace Ama.GameData.Sam

theorem checked : ∀ e ∈ listed, check (exempt "SAM" e.level) (job e) = true := by
  decide +kernel

end Ama.GameData.Sam
