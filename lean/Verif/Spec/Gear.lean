import Verif.Spec.Builder
import Verif.Spec.Locality
import Verif.Spec.Numbers
import Verif.Spec.Simulation

/-!
# Specification vocabulary: a whole run for a character (C112)
-/

namespace Ama.Spec

/-- What a user does with a rotation up to the simulation: make a rotation builder for a character, make the
calls `ops`, ask for the timeline, and turn it into damage instances with a new damage builder. -/
def playedHits (stats : Stats) (lib : SkillLibrary) (snapDots : Option ℚ) (autos trailing : Bool)
    (fightStart : Option ℚ) (downtime : RawDowntime) (target : String) (ops : List BuilderOp) (fuel : ℕ) :
    Py (List DamageInstance) :=
  RotationBuilder.init stats lib snapDots autos trailing fightStart downtime target >>= fun rb =>
    ops.foldlM BuilderOp.run rb >>= fun rb => rb.getSkillTiming fuel >>= fun rb =>
      DamageBuilder.init stats lib >>= fun db => (db.getDamageInstances rb.events).map Prod.fst

/-- Two characters of the same job, level, version and pace; the second one is at least as strong, and may have
more roles in its party, but its speed is of the same tier. -/
structure BetterGear (r r' : RawStats) : Prop where
  stats : NoStronger r r'
  speed : SameSpeed r.version r.level r.speedStat r'.speedStat
  weaponDelay : r'.weaponDelay = r.weaponDelay

/-- A hit whose damage specification and whose buffs and debuffs have no negative numbers in them. -/
def SaneHit (x : DamageInstance) : Prop := NoWeakerHit x x

end Ama.Spec
