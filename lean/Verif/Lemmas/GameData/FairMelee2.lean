import Verif.Lemmas.GameData.Potency

/-!
# Missing a combo or a positional: the further melee jobs
-/

namespace Ama.GameData

theorem Rpr.fair_all : ∀ e ∈ listed, (rawsOf (job e)).all fair = true := by
  decide +kernel

theorem Sam.fair_all : ∀ e ∈ listed, (rawsOf (job e)).all fair = true := by
  decide +kernel

theorem Vpr.fair_all : ∀ e ∈ listed7, (rawsOf (job e)).all fair = true := by
  decide +kernel

end Ama.GameData
