import Verif.Lemmas.DamageRuns
import Verif.Examples.Rotation

/-!
# Timelines for the examples about the damage builder

Nothing here is a claim; the definitions are inputs for the `example`s beside the theorems.
-/

namespace Ama.Ex

open Spec

/-- An ability that increases the damage of its user. -/
def cheer : Skill :=
  { name := "Cheer", isGCD := some false
    timingSpec := .single (some { baseCastTime := 0 })
    buffSpec := .single (some (StatusEffectSpec.make
      { duration := ((10000 : ℚ) : WithTop ℚ), damageMult := 11 / 10 })) }

/-- An ability that increases the damage its target takes. -/
def mark : Skill :=
  { name := "Mark", isGCD := some false
    timingSpec := .single (some { baseCastTime := 0 })
    debuffSpec := .single (some (StatusEffectSpec.make
      { duration := ((10000 : ℚ) : WithTop ℚ), damageMult := 21 / 20 })) }

/-- An ability after which all hits are critical hits for a while. -/
def steel : Skill :=
  { name := "Steel", isGCD := some false
    timingSpec := .single (some { baseCastTime := 0 })
    buffSpec := .single (some (StatusEffectSpec.make
      { duration := ((10000 : ℚ) : WithTop ℚ), guaranteedCrit := .forceYes })) }

/-- A new damage builder for the library. -/
def fresh : DamageBuilder :=
  { se := { priority := [] }, res := JobResourceTracker.init [], combo := { comboBreakers := [] } }

example : DamageBuilder.init stats lib = .ok fresh := by decide +kernel

/-- An event that is processed at `t` and applied at `applied`. -/
def ev (t applied : ℚ) (s : Skill) (targets : List String := [SimConsts.DEFAULT_TARGET])
    (buffs debuffs : Bool := true) : QueueOp :=
  .add { priority := Utils.transformTimeToPrio t, primary := t, secondary := some applied, skill := s,
         modifier := {}, snapshotBuffs := .flag buffs, snapshotDebuffs := .flag debuffs,
         targets := targets }

/-- A timeline whose damage can be computed. -/
theorem damage_of (ops : List QueueOp) (n : ℕ)
    (P : Events → List DamageInstance → List (DamageState × Event) → Prop)
    [∀ a b c, Decidable (P a b c)]
    (h : okAnd (runQueue {} ops) (fun p =>
      okAnd (fresh.getDamageInstances p.2) (fun r =>
        okAnd (traceLoop n { db := fresh, events := p.2 }) (fun tr =>
          decide (tr.2.events.q = [] ∧ P p.2 r.1 tr.1)))) = true) :
    ∃ events xs db' tr s, Timeline events ∧ fresh.getDamageInstances events = .ok (xs, db') ∧
      Processes fresh events tr s ∧ P events xs tr := by
  obtain ⟨⟨out, events⟩, h1, h2⟩ := ok_of h
  obtain ⟨⟨xs, db'⟩, h3, h4⟩ := ok_of h2
  obtain ⟨⟨tr, s⟩, h5, h6⟩ := ok_of h4
  obtain ⟨h7, h8⟩ := of_decide_eq_true h6
  exact ⟨events, xs, db', tr, s, .inr ⟨ops, out, h1⟩, h3, ⟨traceLoop_reaches h5, h7⟩, h8⟩

end Ama.Ex
