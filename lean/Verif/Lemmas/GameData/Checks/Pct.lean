import Verif.Lemmas.GameData.Check
import Verif.Model.GameData.Pct

/-!
# PCT: the class description passes the check for all listed versions
-/

namespace Ama.GameData.Pct

theorem checked : ∀ e ∈ listed7, check (exempt "PCT" e.level) (job e) = true := by
  decide +kernel

end Ama.GameData.Pct
