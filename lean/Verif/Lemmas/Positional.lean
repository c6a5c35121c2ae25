import Verif.Lemmas.Py
import Verif.Spec.Positional

/-!
# Lemmas about inferring positionals
-/

namespace Ama.Utils

theorem getBestKey_no_valueError (keys : List Conds) (W : Conds) :
    getBestKey keys W ≠ .error .valueError := by
  unfold getBestKey
  simp only []
  split <;> simp

theorem specFor_no_valueError (d : Dict Conds (Option DamageSpec)) (W : Conds) :
    specFor d W ≠ .error .valueError := by
  unfold specFor
  intro h
  rcases Py.bind_eq_error.1 h with h | ⟨k, _, h⟩
  · exact getBestKey_no_valueError _ _ h
  · rcases Py.bind_eq_error.1 h with h | ⟨s, _, h⟩
    · have := (Dict.get_error.1 h).1
      cases this
    · cases s <;> simp at h

theorem potentialBonus_no_valueError (d : Dict Conds (Option DamageSpec)) (x : ℚ) (W : Conds) :
    potentialBonus d x W ≠ .error .valueError := by
  unfold potentialBonus
  intro h
  rcases Py.bind_eq_error.1 h with h | ⟨s, _, h⟩
  · exact specFor_no_valueError _ _ h
  · simp only [Py.pure_eq] at h
    split_ifs at h <;> cases h

theorem tryCandidates_ok {d : Dict Conds (Option DamageSpec)} {mp b : ℚ} {init : SkillModifier}
    {cs : List SkillModifier} {S : Conds} (h : tryCandidates d mp b init cs = .ok S) :
    ∃ pre c post, cs = pre ++ c :: post ∧
      (∃ x : ℤ, potentialBonus d mp c.withCondition = .ok x ∧ (x : ℚ) = b) ∧
      (∀ c' ∈ pre, ∃ x : ℤ, potentialBonus d mp c'.withCondition = .ok x ∧ (x : ℚ) ≠ b) ∧
      S = (c.addConditions init.withCondition).withCondition := by
  induction cs with
  | nil => cases h
  | cons c cs ih =>
    unfold tryCandidates at h
    obtain ⟨x, hx, h⟩ := Py.bind_eq_ok.1 h
    split_ifs at h with hb
    · simp only [Py.pure_eq, Except.ok.injEq] at h
      exact ⟨[], c, cs, rfl, ⟨x, hx, hb⟩, by simp, h.symm⟩
    · obtain ⟨pre, c', post, rfl, h1, h2, h3⟩ := ih h
      refine ⟨c :: pre, c', post, rfl, h1, ?_, h3⟩
      intro c'' hc
      rcases List.mem_cons.1 hc with rfl | hc
      · exact ⟨x, hx, hb⟩
      · exact h2 _ hc

theorem tryCandidates_valueError {d : Dict Conds (Option DamageSpec)} {mp b : ℚ}
    {init : SkillModifier} {cs : List SkillModifier}
    (h : tryCandidates d mp b init cs = .error .valueError) :
    ∀ c ∈ cs, ∃ x : ℤ, potentialBonus d mp c.withCondition = .ok x ∧ (x : ℚ) ≠ b := by
  induction cs with
  | nil => simp
  | cons c cs ih =>
    unfold tryCandidates at h
    rcases Py.bind_eq_error.1 h with h | ⟨x, hx, h⟩
    · exact absurd h (potentialBonus_no_valueError _ _ _)
    · split_ifs at h with hb
      · cases h
      · intro c' hc
        rcases List.mem_cons.1 hc with rfl | hc
        · exact ⟨x, hx, hb⟩
        · exact ih h c' hc

theorem specFor_ok {d : Dict Conds (Option DamageSpec)} {W : Conds} {s : DamageSpec} :
    specFor d W = .ok s ↔ (Cond.dict d).lookup W = .ok (some s) := by
  unfold specFor Cond.lookup
  simp only []
  rw [Py.bind_eq_ok, Py.bind_eq_ok]
  constructor
  · rintro ⟨k, hk, h⟩
    refine ⟨k, hk, ?_⟩
    obtain ⟨o, ho, h⟩ := Py.bind_eq_ok.1 h
    cases o with
    | none => cases h
    | some x =>
      simp only [Except.ok.injEq] at h
      rw [ho, h]
  · rintro ⟨k, hk, h⟩
    exact ⟨k, hk, by rw [h]; rfl⟩

theorem foldl_remove (l : List String) (m : SkillModifier) :
    l.foldl SkillModifier.removeFromCondition m = { m with withCondition := m.withCondition \ l.toFinset } := by
  induction l generalizing m with
  | nil => simp
  | cons a l ih =>
    rw [List.foldl_cons, ih]
    unfold SkillModifier.removeFromCondition
    simp only [SkillModifier.mk.injEq, and_true]
    ext x
    simp only [Finset.mem_sdiff, Finset.mem_erase, List.mem_toFinset, List.mem_cons]
    tauto

theorem canon_both : canonicalizeCondition "No Combo, No Positional" = {"No Combo", "No Positional"} := by
  decide +kernel

theorem canon_combo : canonicalizeCondition "No Combo" = {"No Combo"} := by decide +kernel

theorem canon_pos : canonicalizeCondition "No Positional" = {"No Positional"} := by decide +kernel

theorem add_both (m : SkillModifier) : m.addToCondition "No Combo, No Positional" =
    { m with withCondition := m.withCondition ∪ {"No Combo", "No Positional"} } := by
  unfold SkillModifier.addToCondition
  rw [if_neg (by decide), canon_both]

theorem add_combo (m : SkillModifier) : m.addToCondition "No Combo" =
    { m with withCondition := m.withCondition ∪ {"No Combo"} } := by
  unfold SkillModifier.addToCondition
  rw [if_neg (by decide), canon_combo]

theorem add_pos (m : SkillModifier) : m.addToCondition "No Positional" =
    { m with withCondition := m.withCondition ∪ {"No Positional"} } := by
  unfold SkillModifier.addToCondition
  rw [if_neg (by decide), canon_pos]

/-- Adding back the conditions that were set aside, and then everything to the original. -/
theorem add_back (m : SkillModifier) (I E : Conds) (hE : "" ∉ E) :
    m.addConditions ((SkillModifier.addConditions { m with withCondition := m.withCondition \ I ∪ E }
      m.withCondition).withCondition) = { m with withCondition := m.withCondition ∪ E } := by
  by_cases h0 : m.withCondition = {""}
  · have h1 : SkillModifier.addConditions { m with withCondition := m.withCondition \ I ∪ E }
        m.withCondition = { m with withCondition := m.withCondition \ I ∪ E } := by
      unfold SkillModifier.addConditions
      rw [if_pos h0]
    rw [h1]
    unfold SkillModifier.addConditions
    simp only []
    split_ifs with h2
    · have : E = ∅ := by
        rw [Finset.eq_empty_iff_forall_notMem]
        intro x hx
        have hx' : x ∈ m.withCondition \ I ∪ E := Finset.mem_union_right _ hx
        rw [h2, Finset.mem_singleton] at hx'
        exact hE (hx' ▸ hx)
      simp [this]
    · simp only [SkillModifier.mk.injEq, and_true]
      ext x
      simp only [Finset.mem_union, Finset.mem_sdiff]
      tauto
  · have h1 : SkillModifier.addConditions { m with withCondition := m.withCondition \ I ∪ E }
        m.withCondition = { m with withCondition := m.withCondition \ I ∪ E ∪ m.withCondition } := by
      unfold SkillModifier.addConditions
      rw [if_neg h0]
    rw [h1]
    unfold SkillModifier.addConditions
    simp only []
    split_ifs with h2
    · exfalso
      by_cases he : m.withCondition = ∅
      · rw [he] at h2
        have : "" ∈ (∅ \ I ∪ E ∪ ∅ : Conds) := by rw [h2]; simp
        simp at this
        exact hE this
      · obtain ⟨x, hx⟩ := Finset.nonempty_iff_ne_empty.2 he
        have hsub : m.withCondition ⊆ {""} := by
          rw [← h2]; exact Finset.subset_union_right
        exact h0 (Finset.Subset.antisymm hsub (by
          have := Finset.mem_singleton.1 (hsub hx)
          rw [Finset.singleton_subset_iff, ← this]; exact hx))
    · simp only [SkillModifier.mk.injEq, and_true]
      ext x
      simp only [Finset.mem_union, Finset.mem_sdiff]
      tauto

theorem add_self (m : SkillModifier) : m.addConditions m.withCondition = m := by
  unfold SkillModifier.addConditions
  split_ifs
  · rfl
  · simp

end Ama.Utils
