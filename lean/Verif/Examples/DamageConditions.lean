import Verif.Examples.DamageEffects
import Verif.Spec.DamageConditions

/-!
# Timelines for the examples about conditions in the result of the damage builder

Nothing here is a claim; the definitions are inputs for the `example`s beside the theorems.
-/

namespace Ama.Ex

open Spec

def first : Skill :=
  { name := "First", isGCD := some true
    damageSpec := .single (some { potency := 300 })
    comboSpec := .single [{}] }

def second : Skill :=
  { name := "Second", isGCD := some true
    damageSpec := .single (some { potency := 300 })
    comboSpec := .single [{ comboActions := ["First"] }] }

/-- An ability that fills the gauge. -/
def gain : Skill :=
  { name := "Gain", isGCD := some false
    jobResourceSpec := .single [{ name := "Fists", change := 2 }] }

def spender : Skill :=
  { name := "Spender", isGCD := some true
    damageSpec := .single (some { potency := 300 }) }

/-- A skill that reads the gauge when it is applied. -/
def lateSpender : Skill :=
  { name := "Late spender", isGCD := some true
    damageSpec := .single (some { potency := 300 })
    jobResourcesSnapshot := false }

/-- A skill that reads and fills the gauge. -/
def both : Skill :=
  { name := "Both", isGCD := some true
    damageSpec := .single (some { potency := 300 })
    jobResourceSpec := .single [{ name := "Fists", change := 1 }] }

/-- A new damage builder with a gauge. -/
def tracking : DamageBuilder :=
  { se := { priority := [] }
    res := JobResourceTracker.init
      [("Fists", { maxValue := 3, skillAllowlist := ["Spender", "Late spender", "Both"]
                   expiryFromLastGain := 5000 })]
    combo := { comboBreakers := [] } }

/-- The conditions of interest of an instance. -/
def labels (x : DamageInstance) : List String :=
  ["1 Fists", "2 Fists", "3 Fists", "No Combo", "Target 1", "Target 2"].filter
    (fun c => decide (c ∈ x.modifier.withCondition))

/-- A timeline whose damage can be computed. -/
theorem conditions_of (ops : List QueueOp) (P : List DamageInstance → Prop) [∀ a, Decidable (P a)]
    (h : okAnd (runQueue {} ops) (fun p =>
      okAnd (tracking.getDamageInstances p.2) (fun r =>
        p.2.q.all (fun e => !e.jobConditionalProcessed && !e.jobResourcesAdded &&
          !e.comboConditionalProcessed) && decide (P r.1))) = true) :
    ∃ events xs db', Timeline events ∧ (∀ e ∈ events.q, Untouched e) ∧
      tracking.getDamageInstances events = .ok (xs, db') ∧ P xs := by
  obtain ⟨⟨out, events⟩, h1, h2⟩ := ok_of h
  obtain ⟨⟨xs, db'⟩, h3, h4⟩ := ok_of h2
  simp only [Bool.and_eq_true, List.all_eq_true, decide_eq_true_eq, Bool.not_eq_true'] at h4
  exact ⟨events, xs, db', .inr ⟨ops, out, h1⟩,
    fun e he => ⟨(h4.1 e he).1.1, (h4.1 e he).1.2, (h4.1 e he).2⟩, h3, h4.2⟩

end Ama.Ex
