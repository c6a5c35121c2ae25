import Verif.Examples.Damage
import Verif.Spec.DamageEffects

/-!
# Timelines for the examples about effects in the result of the damage builder

Nothing here is a claim; the definitions are inputs for the `example`s beside the theorems.
-/

namespace Ama.Ex

open Spec

/-- A test for regular events. -/
def regularB (e : Event) : Bool :=
  (e.secondary.isNone || decide (e.targets.length ≤ 1)) && decide (e.primary.den = 1) &&
  (match e.secondary with
    | none => true
    | some t => decide (t.den = 1) && decide (e.primary ≤ t)) &&
  decide (|(e.priority : ℚ) - 1000 * e.primary| < 500)

theorem whole_of_den {x : ℚ} (h : x.den = 1) : Whole x := ⟨x.num, (Rat.den_eq_one_iff x).1 h |>.symm⟩

theorem regular_of {e : Event} (h : regularB e = true) : Regular e := by
  unfold regularB at h
  simp only [Bool.and_eq_true, decide_eq_true_eq, Bool.or_eq_true] at h
  obtain ⟨⟨⟨h1, h2⟩, h3⟩, h4⟩ := h
  refine ⟨fun hn => ?_, whole_of_den h2, ?_, h4⟩
  · rcases h1 with h1 | h1
    · exact absurd (by simpa using h1) hn
    · exact h1
  · intro t ht
    rw [ht] at h3
    simp only [Bool.and_eq_true, decide_eq_true_eq] at h3
    exact ⟨whole_of_den h3.1, h3.2⟩

/-- The specification of the effect of `cheer`. -/
def cheerSpec : StatusEffectSpec :=
  StatusEffectSpec.make { duration := ((10000 : ℚ) : WithTop ℚ), damageMult := 11 / 10 }

/-- The specification of the effect of `mark`. -/
def markSpec : StatusEffectSpec :=
  StatusEffectSpec.make { duration := ((10000 : ℚ) : WithTop ℚ), damageMult := 21 / 20 }

theorem cheer_unlimited : Unlimited cheerSpec := ⟨rfl, rfl, rfl⟩

theorem mark_unlimited : Unlimited markSpec := ⟨rfl, rfl, rfl⟩

theorem cheer_gives {e : Event} (hn : e.targets.Nodup)
    (hs : e.skill = cheer ∨ e.skill = mark ∨ e.skill = hit ∨ e.skill = spell) :
    GivesOrLeaves .buffs "Cheer" cheerSpec e := by
  rcases hs with hs | hs | hs | hs
  · refine ⟨fun _ m => ?_, fun h => absurd ?_ h⟩
    · rw [hs]
      exact ⟨hn, by simp [cheerSpec, StatusEffectSpec.make], rfl, by intro d hd; cases hd⟩
    · simp [GivesTo, hs, cheer]
  all_goals
    refine ⟨fun h => absurd h ?_, fun _ t m => ?_⟩
    · rw [GivesTo, hs]
      simp [mark, hit, spell]
    · rw [hs]
      refine ⟨(by intro b hb; cases hb), ?_⟩
      intro d hd
      cases hd <;> simp [StatusEffectSpec.make]

theorem mark_gives {e : Event} (target : String) (hn : e.targets.Nodup)
    (hs : e.skill = cheer ∨ e.skill = mark ∨ e.skill = hit ∨ e.skill = spell) :
    GivesOrLeaves (.debuffs target) "Mark" markSpec e := by
  rcases hs with hs | hs | hs | hs
  · refine ⟨fun h => absurd h.1 (by rw [hs]; decide), fun _ t m => ?_⟩
    rw [hs]
    refine ⟨?_, by intro d hd; cases hd⟩
    intro b hb
    cases hb
    simp [StatusEffectSpec.make]
  · refine ⟨fun h m => ?_, fun h t m => ?_⟩
    · rw [hs]
      exact ⟨hn, by simp [markSpec, StatusEffectSpec.make], rfl, h.2, by intro d hd; cases hd⟩
    · rw [hs]
      refine ⟨(by intro b hb; cases hb), ?_⟩
      intro d hd ht
      exact absurd ⟨by rw [hs]; rfl, ht⟩ h
  all_goals
    refine ⟨fun h => absurd h.1 (by rw [hs]; decide), fun _ t m => ?_⟩
    rw [hs]
    exact ⟨(by intro b hb; cases hb), (by intro b hb; cases hb)⟩

/-- The specification of the effect of `focus`. -/
def focusSpec : StatusEffectSpec :=
  StatusEffectSpec.make { duration := ((10000 : ℚ) : WithTop ℚ), damageMult := 6 / 5, numUses := 2
                          skillAllowlist := some ["Hit"] }

/-- An ability that increases the damage of the next two hits. -/
def focus : Skill :=
  { name := "Focus", isGCD := some false
    timingSpec := .single (some { baseCastTime := 0 })
    buffSpec := .single (some focusSpec) }

theorem focus_gives {e : Event} (hn : e.targets.Nodup)
    (hs : e.skill = focus ∨ e.skill = hit ∨ e.skill = spell) :
    GivesOrLeaves .buffs "Focus" focusSpec e := by
  rcases hs with hs | hs | hs
  · refine ⟨fun _ m => ?_, fun h => absurd ?_ h⟩
    · rw [hs]
      exact ⟨hn, by simp [focusSpec, StatusEffectSpec.make], rfl, by intro d hd; cases hd⟩
    · simp [GivesTo, hs, focus]
  all_goals
    refine ⟨fun h => absurd h ?_, fun _ t m => ?_⟩
    · rw [GivesTo, hs]
      simp [hit, spell]
    · rw [hs]
      exact ⟨(by intro b hb; cases hb), (by intro b hb; cases hb)⟩

/-- A timeline with one effect to follow whose damage can be computed. -/
theorem followed_of (slot : Slot) (name : String) (spec : StatusEffectSpec) (ops : List QueueOp)
    (P : Events → List DamageInstance → Prop) [∀ a b, Decidable (P a b)] (C : Event → Prop)
    [∀ e, Decidable (C e)] (hC : ∀ e, e.targets.Nodup → C e → GivesOrLeaves slot name spec e)
    (h : okAnd (runQueue {} ops) (fun p =>
      okAnd (fresh.getDamageInstances p.2) (fun r =>
        p.2.q.all (fun e => regularB e && decide (e.targets ≠ []) && decide e.targets.Nodup &&
          decide (slot.status e = .flag true ∨ slot.status e = .flag false) && decide (C e)) &&
        decide (P p.2 r.1))) = true) :
    ∃ events xs db', Followed slot name spec events ∧
      fresh.getDamageInstances events = .ok (xs, db') ∧ P events xs := by
  obtain ⟨⟨out, events⟩, h1, h2⟩ := ok_of h
  obtain ⟨⟨xs, db'⟩, h3, h4⟩ := ok_of h2
  simp only [Bool.and_eq_true, List.all_eq_true, decide_eq_true_eq] at h4
  obtain ⟨h5, h6⟩ := h4
  refine ⟨events, xs, db', ⟨.inr ⟨ops, out, h1⟩, fun e he => regular_of (h5 e he).1.1.1.1,
    fun e he => ⟨(h5 e he).1.1.1.2, (h5 e he).1.1.2⟩, fun e he => ?_,
    fun e he => hC e (h5 e he).1.1.2 (h5 e he).2⟩, h3, h6⟩
  rcases (h5 e he).1.2 with h | h
  · exact ⟨_, h⟩
  · exact ⟨_, h⟩

end Ama.Ex
