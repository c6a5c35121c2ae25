import Verif.Spec.Formulas
import Verif.Spec.Locality

/-!
# Specification vocabulary: tiers of substats (C115)
-/

namespace Ama.Spec

/-- Two characters that differ in their substats only, and in these only within tiers: for each of the formulas of
the game the substats give the same number of thousandths.  The direct hit stat is in two formulas, since forced
direct hits turn it into determination. -/
structure SameTiers (r r' : RawStats) : Prop where
  rest : r' = { r with
    critStat := r'.critStat, dhStat := r'.dhStat, detStat := r'.detStat, speedStat := r'.speedStat,
    tenacity := r'.tenacity }
  crit : ⌊200 * (r'.critStat - (levelNumbers r).sub) / (levelNumbers r).div⌋ =
    ⌊200 * (r.critStat - (levelNumbers r).sub) / (levelNumbers r).div⌋
  dh : ⌊550 * (r'.dhStat - (levelNumbers r).sub) / (levelNumbers r).div⌋ =
    ⌊550 * (r.dhStat - (levelNumbers r).sub) / (levelNumbers r).div⌋
  forcedDh : ⌊140 * (r'.dhStat - (levelNumbers r).sub) / (levelNumbers r).div⌋ =
    ⌊140 * (r.dhStat - (levelNumbers r).sub) / (levelNumbers r).div⌋
  det : ⌊140 * (r'.detStat - (levelNumbers r).main) / (levelNumbers r).div⌋ =
    ⌊140 * (r.detStat - (levelNumbers r).main) / (levelNumbers r).div⌋
  speed : ⌊130 * (r'.speedStat - (levelNumbers r).sub) / (levelNumbers r).div⌋ =
    ⌊130 * (r.speedStat - (levelNumbers r).sub) / (levelNumbers r).div⌋
  tenacity : r'.tenacity = r.tenacity ∨ ∃ a b, r.tenacity = some a ∧ r'.tenacity = some b ∧
    ⌊(levelNumbers r).tenacity * (b - (levelNumbers r).sub) / (levelNumbers r).div⌋ =
      ⌊(levelNumbers r).tenacity * (a - (levelNumbers r).sub) / (levelNumbers r).div⌋

end Ama.Spec
