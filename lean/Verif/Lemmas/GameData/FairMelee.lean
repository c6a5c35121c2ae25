import Verif.Lemmas.GameData.Potency

/-!
# Missing a combo or a positional: the melee jobs
-/

namespace Ama.GameData

theorem Drg.fair_all : ∀ e ∈ listed, (rawsOf (job e)).all fair = true := by
  decide +kernel

theorem Mnk.fair_all : ∀ e ∈ (⟨4, 90⟩ :: ⟨4, 100⟩ :: listed : List Env), (rawsOf (job e)).all fair = true := by
  decide +kernel

theorem Nin.fair_all : ∀ e ∈ listed, (rawsOf (job e)).all fair = true := by
  decide +kernel

end Ama.GameData
