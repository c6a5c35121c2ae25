import Verif.Lemmas.GameData.Check
import Verif.Model.GameData.Whm

/-!
# WHM: the class description passes the check for all listed versions
-/

namespace Ama.GameData.Whm

theorem checked : ∀ e ∈ listed, check (exempt "WHM" e.level) (job e) = true := by
  decide +kernel

end Ama.GameData.Whm
