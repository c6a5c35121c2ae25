import Verif.Spec.Builder
import Mathlib.Algebra.Order.Floor.Ring

/-!
# Specification vocabulary for what a timeline depends on
-/

namespace Ama.Spec

/-- What a speed stat does to times: all times are multiplied by 1000 and this many thousandths (a negative number
for speeds above the base value), before they are rounded down to hundredths of a second.  It changes with every
2780 / 130 = 21.4 points of speed at level 100, and every 14.6 at level 90. -/
def speedTier (version : String) (level speed : ℕ) : ℤ :=
  if version ≠ "test" ∧ level = 100 then ⌈(130 : ℚ) * (420 - speed) / 2780⌉ else ⌈(130 : ℚ) * (400 - speed) / 1900⌉

/-- The same speed, or whole speeds of the same tier (up to three times of what the game allows). -/
def SameSpeed (version : String) (level : ℕ) (x y : ℚ) : Prop :=
  y = x ∨ ∃ a b : ℕ, x = a ∧ y = b ∧ a ≤ 15000 ∧ b ≤ 15000 ∧ speedTier version level b = speedTier version level a

/-- The stats agree on the pace: the job class, the tier of the speed, the level, the delay of the weapon, the two traits
that hasten, and whether they are stats of the test version. -/
structure SamePace (s s' : Stats) : Prop where
  job : s'.jobClass = s.jobClass
  speed : SameSpeed s.version s.level s.speedStat s'.speedStat
  level : s'.level = s.level
  weaponDelay : s'.weaponDelay = s.weaponDelay
  haste : s'.processed.traitHasteTimeReduction = s.processed.traitHasteTimeReduction
  autos : s'.processed.traitAutoAttackDelayReduction = s.processed.traitAutoAttackDelayReduction
  test : s'.version = "test" ↔ s.version = "test"

/-- The libraries agree on the gauges and the combo breakers of the job class. -/
structure SameRules (lib lib' : SkillLibrary) (job : String) : Prop where
  settings : lib'.getAllResourceSettings job = lib.getAllResourceSettings job
  breakers : lib'.getAllComboBreakers job = lib.getAllComboBreakers job

/-- The libraries agree on the auto-attack of the job class. -/
structure SameAutos (lib lib' : SkillLibrary) (job : String) : Prop where
  shot : lib'.hasSkill "Shot" job = lib.hasSkill "Shot" job
  autos : ∀ a ∈ ["Shot", "Auto"], lib'.getSkill a job = lib.getSkill a job

end Ama.Spec
