import Verif.Spec.Gear
import Verif.Props.Locality

/-!
# C114: speed within a tier does not change a rotation
-/

namespace Ama

open Spec

section

variable {raw raw' : RawStats} {stats stats' : Stats}

/-- C114.  Two characters of the same job, version, level and weapon delay with speeds of the same tier get the
same timeline and the same presses from the same calls, or the same exception. -/
theorem C114_timeline (hs : mkStats raw = .ok stats) (hs' : mkStats raw' = .ok stats')
    (hj : raw'.jobClass = raw.jobClass) (hv : raw'.version = raw.version) (hl : raw'.level = raw.level)
    (hsp : SameSpeed raw.version raw.level raw.speedStat raw'.speedStat) (hw : raw'.weaponDelay = raw.weaponDelay)
    (lib : SkillLibrary) (snapDots : Option ℚ) (autos trailing : Bool) (fightStart : Option ℚ)
    (downtime : RawDowntime) (target : String) (ops : List BuilderOp) (fuel : ℕ) :
    observed (RotationBuilder.init stats' lib snapDots autos trailing fightStart downtime target >>= fun rb =>
        ops.foldlM BuilderOp.run rb >>= fun rb => rb.getSkillTiming fuel) =
      observed (RotationBuilder.init stats lib snapDots autos trailing fightStart downtime target >>= fun rb =>
        ops.foldlM BuilderOp.run rb >>= fun rb => rb.getSkillTiming fuel) :=
  C87_stats (C87_offence hs hs' hj hv hl hsp hw) lib snapDots autos trailing fightStart downtime target ops fuel

/-- C114.  They also get the same hits, with the same buffs and debuffs. -/
theorem C114_hits (hs : mkStats raw = .ok stats) (hs' : mkStats raw' = .ok stats')
    (hj : raw'.jobClass = raw.jobClass) (hv : raw'.version = raw.version) (hl : raw'.level = raw.level)
    (hsp : SameSpeed raw.version raw.level raw.speedStat raw'.speedStat) (hw : raw'.weaponDelay = raw.weaponDelay)
    (lib : SkillLibrary) (snapDots : Option ℚ) (autos trailing : Bool) (fightStart : Option ℚ)
    (downtime : RawDowntime) (target : String) (ops : List BuilderOp) (fuel : ℕ) :
    playedHits stats' lib snapDots autos trailing fightStart downtime target ops fuel =
      playedHits stats lib snapDots autos trailing fightStart downtime target ops fuel := by
  have e := C114_timeline hs hs' hj hv hl hsp hw lib snapDots autos trailing fightStart downtime target ops fuel
  have hj' : stats'.jobClass = stats.jobClass := by
    obtain ⟨p, w, -, -, rfl⟩ := mkStats_ok hs
    obtain ⟨p', w', -, -, rfl⟩ := mkStats_ok hs'
    exact hj
  have f : ∀ st : Stats, playedHits st lib snapDots autos trailing fightStart downtime target ops fuel =
      (observed (RotationBuilder.init st lib snapDots autos trailing fightStart downtime target >>= fun rb =>
        ops.foldlM BuilderOp.run rb >>= fun rb => rb.getSkillTiming fuel) >>= fun r =>
        (DamageBuilder.init st lib >>= fun db => db.getDamageInstances r.1).map Prod.fst) := by
    intro st
    unfold playedHits observed
    cases RotationBuilder.init st lib snapDots autos trailing fightStart downtime target with
    | error => rfl
    | ok rb =>
      simp only [Py.ok_bind]
      cases ops.foldlM BuilderOp.run rb with
      | error => rfl
      | ok rb =>
        simp only [Py.ok_bind]
        cases rb.getSkillTiming fuel with
        | error => rfl
        | ok rb =>
          simp only [Py.ok_bind]
          cases DamageBuilder.init st lib <;> rfl
  rw [f, f, e]
  congr 1
  funext r
  rw [C87_instances (s := stats) (s' := stats') (lib := lib) (lib' := lib) hj' ⟨rfl, rfl⟩ rfl]

end

namespace Ex

/-- The presses of the character of the examples with another speed. -/
def pressesAt (speed : ℚ) : Option (ℕ × List (ℚ × String)) :=
  match mkStats { rawStats with speedStat := speed } with
  | .ok st => summary st lib
  | .error _ => none

/-- The tier of speed 708 at level 90 goes up to 721. -/
example : SameSpeed rawStats.version rawStats.level 708 721 ∧
    ¬ SameSpeed rawStats.version rawStats.level 708 722 := by
  refine ⟨.inr ⟨708, 721, rfl, rfl, by norm_num, by norm_num, by decide +kernel⟩, ?_⟩
  rintro (h | ⟨a, b, h1, h2, -, -, h⟩)
  · norm_num at h
  · obtain rfl : a = 708 := by exact_mod_cast h1.symm
    obtain rfl : b = 722 := by exact_mod_cast h2.symm
    exact absurd h (by decide +kernel)

-- the same presses at 721; at 800 they come earlier
example : pressesAt 721 = some (11, [(-500, "Hit"), (150, "Haste"), (1940, "Spell"), (4050, "Venom")]) := by
  decide +kernel

example : pressesAt 800 ≠ pressesAt 721 := by
  decide +kernel

end Ex

end Ama
