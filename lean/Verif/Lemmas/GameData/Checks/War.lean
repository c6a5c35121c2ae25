import Verif.Lemmas.GameData.Check
import Verif.Model.GameData.War

/-!
# WAR: the class description passes the check for all listed versions
-/

namespace Ama.GameData.War

theorem checked : ∀ e ∈ listed, check (exempt "WAR" e.level) (job e) = true := by
  decide +kernel

end Ama.GameData.War
