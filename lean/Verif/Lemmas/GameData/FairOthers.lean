import Verif.Lemmas.GameData.Potency

/-!
# Missing a combo or a positional: the tanks, healers, SMN and PCT
-/

namespace Ama.GameData

theorem Smn.fair_all : ∀ e ∈ listed, (rawsOf (job e)).all fair = true := by
  decide +kernel

theorem Pct.fair_all : ∀ e ∈ listed7, (rawsOf (job e)).all fair = true := by
  decide +kernel

theorem Drk.fair_all : ∀ e ∈ listed, (rawsOf (job e)).all fair = true := by
  decide +kernel

theorem Gnb.fair_all : ∀ e ∈ listed, (rawsOf (job e)).all fair = true := by
  decide +kernel

theorem Pld.fair_all : ∀ e ∈ listed, (rawsOf (job e)).all fair = true := by
  decide +kernel

theorem War.fair_all : ∀ e ∈ listed, (rawsOf (job e)).all fair = true := by
  decide +kernel

theorem Ast.fair_all : ∀ e ∈ listed, (rawsOf (job e)).all fair = true := by
  decide +kernel

theorem Sch.fair_all : ∀ e ∈ listed, (rawsOf (job e)).all fair = true := by
  decide +kernel

theorem Sge.fair_all : ∀ e ∈ listed, (rawsOf (job e)).all fair = true := by
  decide +kernel

theorem Whm.fair_all : ∀ e ∈ listed, (rawsOf (job e)).all fair = true := by
  decide +kernel

end Ama.GameData
