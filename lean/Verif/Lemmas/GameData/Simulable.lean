import Verif.Lemmas.GameData.Playable
import Verif.Spec.Simulate

/-!
# Rotations of shipped skills can be simulated
-/

namespace Ama.GameData

open Spec SkillLibrary

variable {version : String} {level : ℕ} {lib : SkillLibrary} {cs : List ClassSkills} {base ws : List Skill}

theorem simulable_of {rb : RotationBuilder} (hin : ∀ a, InPlay rb a → ∃ x n, CoreOk x n a)
    (hc : Complete rb) {k : SkillCore} {x : Exempt} {n : Names} (hk : CoreOk x n k) {m₀ : SkillModifier}
    (hm : ∀ f ∈ [m₀.guaranteedCrit, m₀.guaranteedDh], f ≠ .forceNo ∧ (k.name ∈ neverHits → f ≠ .forceYes)) :
    Simulable rb m₀ k := by
  intro m d _ hd
  have hD := hk.damage m d hd
  refine ⟨hD.1, fun _ => hc.strength, ?_⟩
  have key : ∀ c h, Decides rb m₀ k d c h →
      if k.name ∈ neverHits then c ≠ .forceYes ∧ h ≠ .forceYes else c ≠ .forceNo ∧ h ≠ .forceNo := by
    intro c h hch
    cases hch with
    | damage => exact hD.2
    | use =>
      have h1 := hm m₀.guaranteedCrit (by simp)
      have h2 := hm m₀.guaranteedDh (by simp)
      split_ifs with hn
      · exact ⟨h1.2 hn, h2.2 hn⟩
      · exact ⟨h1.1, h2.1⟩
    | effect a m s ha hs hal =>
      obtain ⟨x', n', ca⟩ := hin a ha
      by_cases hf : Forces s
      · rcases hs with hs | hs
        · obtain ⟨h1, l, h2, h3, -⟩ := ca.forces m s hs hf
          rw [if_neg (h3 _ (hal.2 l h2))]
          exact h1
        · exact absurd hf (ca.noForces m s hs)
      · unfold Forces at hf
        simp only [ne_eq, not_or, not_not] at hf
        rw [hf.1, hf.2]
        split_ifs <;> simp
  intro c h c' h' k1 k2
  have e1 := key _ _ k1
  have e2 := key _ _ k2
  by_cases hn : k.name ∈ neverHits
  · rw [if_pos hn] at e1
    exact ⟨fun h => e1.1 h.1, fun h => e1.2 h.1⟩
  · rw [if_neg hn] at e2
    exact ⟨fun h => e2.1 h.2, fun h => e2.2 h.2⟩

theorem simulableRotation {rb : RotationBuilder} (h : Library version level rb.lib cs base ws) (hb : Built rb)
    (hc : Complete rb) : SimulableRotation rb := by
  have hin : ∀ a, InPlay rb a → ∃ x n, CoreOk x n a := fun a ha => inPlay_core h hb ha
  have plain : ∀ (k : SkillCore) (f : Forced), f ∈ [({} : SkillModifier).guaranteedCrit, ({} : SkillModifier).guaranteedDh] →
      f ≠ .forceNo ∧ (k.name ∈ neverHits → f ≠ .forceYes) := by
    intro k f hf
    simp only [List.mem_cons, List.not_mem_nil, or_false, or_self] at hf
    subst hf
    exact ⟨by simp, fun _ => by simp⟩
  refine ⟨hc.tank, fun skill m job ha => ?_, fun skill m job m' fs ha _ hfs f hf => ?_, fun _ skill delay hs => ?_⟩
  · obtain ⟨name, hl⟩ := asked_lib hb ha
    obtain ⟨hn, x, n, ho, _⟩ := h.skill hl
    exact simulable_of hin hc ho.toCoreOk (hc.presses skill m job ha)
  · obtain ⟨name, hl⟩ := asked_lib hb ha
    obtain ⟨hn, x, n, ho, _⟩ := h.skill hl
    exact simulable_of hin hc (ho.followUp m' fs hfs f hf) (plain _)
  · rcases hs.1 with ⟨-, hl⟩ | ⟨-, hl⟩
    · obtain ⟨hn, x, n, ho, _⟩ := h.skill hl
      exact simulable_of hin hc ho.toCoreOk (plain _)
    · obtain ⟨hn, x, n, ho, _⟩ := h.skill hl
      exact simulable_of hin hc ho.toCoreOk (plain _)

end Ama.GameData
