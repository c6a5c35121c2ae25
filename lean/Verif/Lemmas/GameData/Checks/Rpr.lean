import Verif.Lemmas.GameData.Check
import Verif.Model.GameData.Rpr

/-!
# RPR: the class description passes the check for all listed versions
-/

namespace Ama.GameData.Rpr

theorem checked : ∀ e ∈ listed, check (exempt "RPR" e.level) (job e) = true := by
  decide +kernel

end Ama.GameData.Rpr
