import Verif.Lemmas.GameData.Check
import Verif.Model.GameData.Mch

/-!
# MCH: the class description passes the check for all listed versions
-/

namespace Ama.GameData.Mch

theorem checked : ∀ e ∈ listed, check (exempt "MCH" e.level) (job e) = true := by
  decide +kernel

end Ama.GameData.Mch
