import Verif.Lemmas.GameData.Check
import Verif.Model.GameData.Dnc

/-!
# DNC: the class description passes the check for all listed versions
-/

namespace Ama.GameData.Dnc

theorem checked : ∀ e ∈ listed, check (exempt "DNC" e.level) (job e) = true := by
  decide +kernel

end Ama.GameData.Dnc
