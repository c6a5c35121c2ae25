import Verif.Lemmas.GameData.Check
import Verif.Model.GameData.Mnk

/-!
# MNK: the class description passes the check for all listed versions
-/

namespace Ama.GameData.Mnk

theorem checked : ∀ e ∈ (⟨4, 90⟩ :: ⟨4, 100⟩ :: listed : List Env), check (exempt "MNK" e.level) (job e) = true := by
  decide +kernel

end Ama.GameData.Mnk
