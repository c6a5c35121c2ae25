import Verif.Lemmas.Positional

/-!
# C57, C65: inferring positionals from a bonus percentage
-/

namespace Ama

open Spec Utils

variable {skill : Skill} {m m' : SkillModifier}

/-- Sample skill with a combo and a rear positional. -/
def Ex.backstab : Skill :=
  { name := "Backstab"
    damageSpec := .dict [(∅, some { potency := 400 }), ({"No Positional"}, some { potency := 340 }),
      ({"No Combo"}, some { potency := 200 }), ({"No Combo", "No Positional"}, some { potency := 140 })]
    ignoredConditionsForBonusPotency := ["Drawn"] }

/-- The cases of the inference. -/
theorem positional_cases {skill : Skill} {m m' : SkillModifier} (h : addPositional skill m = .ok m') :
    ∃ E ∈ explanations, m' = { m with withCondition := m.withCondition ∪ E } := by
  have same : ∃ E ∈ explanations, m = { m with withCondition := m.withCondition ∪ E } :=
    ⟨∅, by simp [explanations], by simp⟩
  unfold addPositional at h
  split at h
  · next S hS =>
    injection h with h
    subst h
    unfold getPositionalCondition at hS
    split at hS
    · injection hS with hS
      subst hS
      unfold SkillModifier.addConditions
      rw [if_neg (by decide)]
      rw [Finset.union_empty]
      exact same
    · next d hd =>
      split_ifs at hS with h0
      · injection hS with hS
        subst hS
        rw [add_self]
        exact same
      · split at hS
        · injection hS with hS
          subst hS
          rw [add_self]
          exact same
        · next b hb =>
          simp only [] at hS
          split_ifs at hS with h1
          · injection hS with hS
            subst hS
            refine ⟨{"No Positional"}, by simp [explanations], ?_⟩
            unfold SkillModifier.addConditions
            rw [if_neg]
            · simp only [SkillModifier.mk.injEq, and_true]
              ext x
              simp
            · intro hc
              have : "No Positional" ∈ ({""} : Conds) := by rw [← hc]; simp
              exact absurd this (by decide)
          · obtain ⟨low, _, hS⟩ := Py.bind_eq_ok.1 hS
            obtain ⟨pre, c, post, hcs, _, _, rfl⟩ := tryCandidates_ok hS
            have hc : c ∈ pre ++ c :: post := by simp
            rw [← hcs, foldl_remove, add_both, add_combo, Utils.add_pos] at hc
            simp only [List.mem_cons, List.not_mem_nil, or_false] at hc
            rcases hc with rfl | rfl | rfl | rfl
            · refine ⟨∅, by simp [explanations], ?_⟩
              have := add_back m skill.ignoredConditionsForBonusPotency.toFinset ∅ (by decide)
              rwa [Finset.union_empty] at this
            · exact ⟨{"No Positional"}, by simp [explanations], add_back m _ _ (by decide)⟩
            · exact ⟨{"No Combo"}, by simp [explanations], add_back m _ _ (by decide)⟩
            · exact ⟨{"No Combo", "No Positional"}, by simp [explanations], add_back m _ _ (by decide)⟩
  · cases h
    exact same
  · cases h

/-- C57: inferring from the bonus percentage keeps all conditions, adds at most `No Combo` and
`No Positional`, and changes nothing else about the modifier. -/
theorem C57_conditions (h : addPositional skill m = .ok m') :
    m.withCondition ⊆ m'.withCondition ∧
    m'.withCondition ⊆ m.withCondition ∪ {"No Combo", "No Positional"} ∧
    m' = { m with withCondition := m'.withCondition } := by
  obtain ⟨E, hE, rfl⟩ := positional_cases h
  refine ⟨Finset.subset_union_left, Finset.union_subset_union_right ?_, rfl⟩
  simp only [explanations, List.mem_cons, List.not_mem_nil, or_false] at hE
  rcases hE with rfl | rfl | rfl | rfl <;> decide

/-- C57: without a bonus percentage nothing is inferred. -/
theorem C57_no_bonus (h : addPositional skill m = .ok m') (hb : m.bonusPercent = none) : m' = m := by
  unfold addPositional at h
  split at h
  · next S hS =>
    injection h with h
    subst h
    unfold getPositionalCondition at hS
    split at hS
    · injection hS with hS
      subst hS
      unfold SkillModifier.addConditions
      rw [if_neg (by decide)]
      simp
    · rw [hb] at hS
      split_ifs at hS
      · injection hS with hS; subst hS; exact add_self m
      · injection hS with hS; subst hS; exact add_self m
  · cases h; rfl
  · cases h

example : (addPositional Ex.backstab { withCondition := {"Drawn"}, bonusPercent := some 58 }).map
    (·.withCondition) = .ok {"Drawn", "No Positional"} := by
  decide +kernel

/-- C65: for a skill whose damage depends on the positional, a positive bonus is explained by the
first of "nothing missed", "positional missed", "combo missed", "both missed" under which the skill
shows that bonus (leaving out the conditions the skill ignores for this purpose); if there is none the
conditions stay as they are. -/
theorem C65_explained {d : Dict Conds (Option DamageSpec)} {b : ℚ} (hd : skill.damageSpec = .dict d)
    (hp : ∃ k ∈ Dict.keys d, "No Positional" ∈ k) (hb : m.bonusPercent = some b) (h0 : b ≠ 0)
    (h : addPositional skill m = .ok m') :
    let conds := m.withCondition.filter (· ∉ skill.ignoredConditionsForBonusPotency)
    (∃ i : ℕ, ∃ hi : i < explanations.length, ShowsBonus skill conds explanations[i] b ∧
      (∀ (j : ℕ) (hj : j < i), ¬ShowsBonus skill conds explanations[j] b) ∧
      m'.withCondition = m.withCondition ∪ explanations[i]) ∨
    ((∀ E ∈ explanations, ¬ShowsBonus skill conds E b) ∧ m' = m) := by
  intro conds
  have hconds : m.withCondition \ skill.ignoredConditionsForBonusPotency.toFinset = conds := by
    ext x
    simp [conds]
  have hne : ¬(d.filter (fun kv => decide ("No Positional" ∈ kv.1))).length = 0 := by
    obtain ⟨k, hk, hp⟩ := hp
    obtain ⟨kv, hkv, rfl⟩ := List.mem_map.1 hk
    intro hc
    have : kv ∈ d.filter (fun kv => decide ("No Positional" ∈ kv.1)) :=
      List.mem_filter.2 ⟨hkv, by simpa using hp⟩
    rw [List.length_eq_zero_iff.1 hc] at this
    cases this
  have hrun : getPositionalCondition skill m = (specFor d (conds ∪ {"No Combo", "No Positional"}) >>=
      fun low => tryCandidates d low.potency b m
        (explanations.map fun E => { m with withCondition := conds ∪ E })) := by
    unfold getPositionalCondition damageSpecToUse
    simp only [hd, if_neg hne]
    rw [show m.bonusPercent = some b from hb]
    simp only [if_neg h0]
    rw [foldl_remove, add_both, add_combo, Utils.add_pos]
    simp only [hconds, explanations, List.map_cons, List.map_nil, Finset.union_empty, hb]
  have shows : ∀ (low : DamageSpec) (E : Conds) (x : ℤ),
      specFor d (conds ∪ {"No Combo", "No Positional"}) = .ok low →
      potentialBonus d low.potency (conds ∪ E) = .ok x →
      (ShowsBonus skill conds E b ↔ (x : ℚ) = b) := by
    intro low E x hlow hx
    unfold potentialBonus at hx
    obtain ⟨s, hs, hx⟩ := Py.bind_eq_ok.1 hx
    simp only [] at hx
    split_ifs at hx with hz
    simp only [Py.pure_eq, Except.ok.injEq] at hx
    have hs' : skill.getDamageSpec { withCondition := conds ∪ E } = .ok (some s) := by
      unfold SkillCore.getDamageSpec
      rw [hd]
      exact specFor_ok.1 hs
    have hlow' : skill.getDamageSpec { withCondition := conds ∪ {"No Combo", "No Positional"} } =
        .ok (some low) := by
      unfold SkillCore.getDamageSpec
      rw [hd]
      exact specFor_ok.1 hlow
    unfold ShowsBonus
    constructor
    · rintro ⟨s1, low1, h1, h2, h3, h4⟩
      rw [hs'] at h1
      rw [hlow'] at h2
      cases h1
      cases h2
      rw [← hx]
      exact h4.symm
    · intro hxb
      exact ⟨s, low, hs', hlow', hz, by rw [← hxb, ← hx]; rfl⟩
  unfold addPositional at h
  rw [hrun] at h
  split at h
  · next S hS =>
    injection h with h
    obtain ⟨low, hlow, hS⟩ := Py.bind_eq_ok.1 hS
    obtain ⟨pre, c, post, hcs, ⟨x, hx, hxb⟩, hpre, hSeq⟩ := tryCandidates_ok hS
    left
    have hlen : pre.length < explanations.length := by
      have := congrArg List.length hcs
      simp only [List.length_map, List.length_append, List.length_cons] at this
      omega
    have hget : ∀ (j : ℕ) (hj : j < explanations.length),
        (explanations.map fun E => ({ m with withCondition := conds ∪ E } : SkillModifier))[j]'(by
          simpa using hj) = { m with withCondition := conds ∪ explanations[j] } := by
      intro j hj
      simp
    have hc : c = { m with withCondition := conds ∪ explanations[pre.length] } := by
      rw [← hget pre.length hlen]
      simp only [hcs]
      simp
    refine ⟨pre.length, hlen, ?_, ?_, ?_⟩
    · exact (shows low _ x hlow (by rw [hc] at hx; exact hx)).2 hxb
    · intro j hj
      have hj' : j < explanations.length := by omega
      have hmem : ({ m with withCondition := conds ∪ explanations[j] } : SkillModifier) ∈ pre := by
        rw [← hget j hj']
        simp only [hcs]
        rw [List.getElem_append_left hj]
        exact List.getElem_mem _
      obtain ⟨y, hy, hyb⟩ := hpre _ hmem
      exact fun hsh => hyb ((shows low _ y hlow hy).1 hsh)
    · rw [← h, hSeq, hc, ← hconds]
      rw [add_back m _ _ (by
        have : explanations[pre.length] ∈ explanations := List.getElem_mem _
        simp only [explanations, List.mem_cons, List.not_mem_nil, or_false] at this
        rcases this with h | h | h | h <;> rw [show explanations[pre.length] = _ from h] <;> decide)]
  · next hS =>
    injection h with h
    right
    refine ⟨?_, h.symm⟩
    rcases Py.bind_eq_error.1 hS with hS | ⟨low, hlow, hS⟩
    · exact absurd hS (specFor_no_valueError _ _)
    · intro E hE
      obtain ⟨y, hy, hyb⟩ := tryCandidates_valueError hS _ (List.mem_map.2 ⟨E, hE, rfl⟩)
      exact fun hsh => hyb ((shows low _ y hlow hy).1 hsh)
  · cases h

example : (addPositional Ex.backstab { withCondition := {"Drawn", "Fire"}, bonusPercent := some 30 }).map
    (·.withCondition) = .ok {"Drawn", "Fire", "No Combo"} := by
  decide +kernel

/-- C65 (no bonus): a bonus of zero on such a skill means the positional was missed. -/
theorem C65_zero {d : Dict Conds (Option DamageSpec)} (hd : skill.damageSpec = .dict d)
    (hp : ∃ k ∈ Dict.keys d, "No Positional" ∈ k) (hb : m.bonusPercent = some 0) :
    addPositional skill m = .ok { m with withCondition := insert "No Positional" m.withCondition } := by
  have hne : ¬(d.filter (fun kv => decide ("No Positional" ∈ kv.1))).length = 0 := by
    obtain ⟨k, hk, hp⟩ := hp
    obtain ⟨kv, hkv, rfl⟩ := List.mem_map.1 hk
    intro hc
    have : kv ∈ d.filter (fun kv => decide ("No Positional" ∈ kv.1)) :=
      List.mem_filter.2 ⟨hkv, by simpa using hp⟩
    rw [List.length_eq_zero_iff.1 hc] at this
    cases this
  unfold addPositional getPositionalCondition damageSpecToUse
  simp only [hd, hb, if_neg hne, if_true]
  unfold SkillModifier.addConditions
  rw [if_neg]
  · congr 2
    ext x
    simp
  · intro hc
    have : "No Positional" ∈ ({""} : Conds) := by rw [← hc]; simp
    exact absurd this (by decide)

example : addPositional Ex.backstab { bonusPercent := some 0 } =
    .ok { withCondition := {"No Positional"}, bonusPercent := some 0 } := by decide +kernel

end Ama
