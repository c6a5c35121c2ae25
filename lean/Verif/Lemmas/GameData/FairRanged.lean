import Verif.Lemmas.GameData.Potency

/-!
# Missing a combo or a positional: the ranged jobs
-/

namespace Ama.GameData

theorem Brd.fair_all : ∀ e ∈ listed, (rawsOf (job e)).all fair = true := by
  decide +kernel

theorem Dnc.fair_all : ∀ e ∈ listed, (rawsOf (job e)).all fair = true := by
  decide +kernel

theorem Mch.fair_all : ∀ e ∈ listed, (rawsOf (job e)).all fair = true := by
  decide +kernel

theorem Blm.fair_all : ∀ e ∈ listed, (rawsOf (job e)).all fair = true := by
  decide +kernel

theorem Rdm.fair_all : ∀ e ∈ listed, (rawsOf (job e)).all fair = true := by
  decide +kernel

end Ama.GameData
