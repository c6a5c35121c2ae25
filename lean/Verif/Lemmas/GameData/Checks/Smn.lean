import Verif.Lemmas.GameData.Check
import Verif.Model.GameData.Smn

/-!
# SMN: the class description passes the check for all listed versions
-/

namespace Ama.GameData.Smn

theorem checked : ∀ e ∈ listed, check (exempt "SMN" e.level) (job e) = true := by
  decide +kernel

end Ama.GameData.Smn
