import Verif.Lemmas.AoeDropoff

/-!
# Properties C01 - C07: conditions and conditional variants
-/

namespace Ama

open Spec Utils

/-! ## C01: condition strings round-trip -/

/-- C01 (second half): reading any string never yields a condition with a comma or blank ends. -/
theorem C01_read_clean (s c : String) (h : c ∈ canonicalizeCondition s) : CleanName c :=
  canonicalize_clean h

example : "No Combo" ∈ canonicalizeCondition "  Buffed ,No Combo" := by decide +kernel

/-- C01 (first half): writing the set of conditions read from a string in *any* order, with
separator `","` or `", "`, and reading it back gives the same set.
Partial: the set `{""}` (read from a blank string such as `" "`) is excluded; see
`C01_blank_refuted`. -/
theorem C01_round_trip_partial (s : String) (l : List String)
    (hl : Lists l (canonicalizeCondition s)) (hne : canonicalizeCondition s ≠ {""}) :
    canonicalizeCondition (strJoin "," l) = canonicalizeCondition s ∧
    canonicalizeCondition (strJoin ", " l) = canonicalizeCondition s := by
  have hclean : ∀ c ∈ l, CleanName c := fun c hc => canonicalize_clean ((hl.2 c).1 hc)
  have hset : l.toFinset = canonicalizeCondition s := by
    ext c
    rw [List.mem_toFinset]
    exact hl.2 c
  have hl1 : l ≠ [""] := by
    rintro rfl
    apply hne
    rw [← hset]
    rfl
  constructor
  · have := canonicalize_strJoin [] (by simp) l hclean hl1
    rw [hset] at this
    exact this
  · have := canonicalize_strJoin [' '] (by decide) l hclean hl1
    rw [hset] at this
    exact this

example : Lists ["b", "a"] (canonicalizeCondition " a,b , a") ∧
    canonicalizeCondition " a,b , a" ≠ {""} := by
  have h : canonicalizeCondition " a,b , a" = {"a", "b"} := by decide +kernel
  rw [h]
  refine ⟨⟨by decide, ?_⟩, by decide +kernel⟩
  intro c
  simp [or_comm]

/-- C01 is false for blank condition strings: `" "` reads as the set `{""}`, which is written as
`""`, which reads as the empty set. -/
theorem C01_blank_refuted :
    ∃ (s : String) (l : List String), Lists l (canonicalizeCondition s) ∧
      canonicalizeCondition (strJoin "," l) ≠ canonicalizeCondition s := by
  have h : canonicalizeCondition " " = {""} := by decide +kernel
  refine ⟨" ", [""], ⟨by simp, ?_⟩, ?_⟩
  · intro c
    rw [h]
    simp
  · rw [h]
    decide +kernel

/-- C01 used by the rest of the model: adding a joined set of clean conditions to a modifier does
not depend on the order in which the set is written. -/
theorem addToCondition_join (m : SkillModifier) (S : Conds) (l : List String) (hl : Lists l S)
    (hS : ∀ c ∈ S, CleanName c) (ws : List Char) (hws : ∀ c ∈ ws, isPySpace c = true) :
    m.addToCondition (strJoin (String.ofList (',' :: ws)) l) = m.addConditions S := by
  have hset : l.toFinset = S := by
    ext c
    rw [List.mem_toFinset]
    exact hl.2 c
  unfold SkillModifier.addConditions
  by_cases h1 : S = {""}
  · have hl1 : l = [""] := by
      have hlen : l.length = 1 := by
        rw [← List.toFinset_card_of_nodup hl.1, hset, h1]
        rfl
      obtain ⟨a, rfl⟩ := List.length_eq_one_iff.1 hlen
      have : a ∈ S := (hl.2 a).1 (by simp)
      rw [h1] at this
      simp at this
      rw [this]
    subst hl1
    simp [h1, strJoin, joinWith, SkillModifier.addToCondition]
  · rw [if_neg h1]
    have hl1 : l ≠ [""] := by
      rintro rfl
      apply h1
      rw [← hset]
      rfl
    have hc := canonicalize_strJoin ws hws l (fun c hc => hS c ((hl.2 c).1 hc)) hl1
    rw [hset] at hc
    unfold SkillModifier.addToCondition
    split_ifs with h0
    · -- the joined string is empty, so `S` is empty
      have : S = ∅ := by
        rw [← hc]
        unfold canonicalizeCondition
        rw [if_pos h0]
      simp [this]
    · rw [hc]

/-! ## C02: adding conditions to a modifier is a union -/

/-- C02: adding conditions is the union with what the string denotes, touches nothing else, never
drops a condition, is idempotent and commutative. -/
theorem C02_add_is_union (m : SkillModifier) (a b : String) :
    (m.addToCondition a).withCondition = m.withCondition ∪ canonicalizeCondition a ∧
    { m.addToCondition a with withCondition := m.withCondition } = m ∧
    m.withCondition ⊆ (m.addToCondition a).withCondition ∧
    (m.addToCondition a).addToCondition a = m.addToCondition a ∧
    (m.addToCondition a).addToCondition b = (m.addToCondition b).addToCondition a := by
  have key : ∀ (m : SkillModifier) (a : String), m.addToCondition a =
      { m with withCondition := m.withCondition ∪ canonicalizeCondition a } := by
    intro m a
    unfold SkillModifier.addToCondition
    split_ifs with h
    · simp [canonicalizeCondition, h]
    · rfl
  refine ⟨by rw [key], by rw [key], by rw [key]; exact Finset.subset_union_left, ?_, ?_⟩
  · simp only [key, Finset.union_assoc, Finset.union_self]
  · simp only [key, Finset.union_assoc]
    rw [Finset.union_comm (canonicalizeCondition a)]

/-- C02: adding the concatenation `a, b` equals adding `a` and then `b`.
Partial: both must be non-empty; see `C02_concat_refuted`. -/
theorem C02_concat_partial (m : SkillModifier) (a b : String) (ha : a ≠ "") (hb : b ≠ "") :
    m.addToCondition (a ++ ", " ++ b) = (m.addToCondition a).addToCondition b := by
  have key : ∀ (m : SkillModifier) (a : String), m.addToCondition a =
      { m with withCondition := m.withCondition ∪ canonicalizeCondition a } := by
    intro m a
    unfold SkillModifier.addToCondition
    split_ifs with h
    · simp [canonicalizeCondition, h]
    · rfl
  simp only [key, canonicalize_append a b ha hb, Finset.union_assoc]

example : (({} : SkillModifier).addToCondition ("A" ++ ", " ++ "B, C")).withCondition =
    {"A", "B", "C"} := by decide +kernel

/-- C02's concatenation law is false for an empty part: `", B"` also adds the condition `""`. -/
theorem C02_concat_refuted :
    ∃ (m : SkillModifier) (a b : String),
      m.addToCondition (a ++ ", " ++ b) ≠ (m.addToCondition a).addToCondition b := by
  refine ⟨{}, "", "B", ?_⟩
  decide +kernel

/-! ## C03: the most specific matching variant is used -/

/-- C03 for any table of variants. -/
theorem lookup_mostSpecific {α : Type} (raw : Dict String α) (hb : NoBlankKey raw) (W : Conds) (v : α)
    (h : (RawCond.dict raw).canonicalize.lookup W = .ok v) : MostSpecific raw W v := by
  have hn := canonicalizeDict_nodup raw
  simp only [RawCond.canonicalize] at h
  have hblank : ({""} : Conds) ∉ Dict.keys (canonicalizeDict raw) := by
    rw [mem_keys_canonicalizeDict]
    rintro ⟨k, hk, he⟩
    obtain ⟨kv, hkv, rfl⟩ := List.mem_map.1 hk
    exact hb kv hkv he
  cases hl : lastBest W (Dict.keys (canonicalizeDict raw)) with
  | none =>
    rw [Cond.lookup_dict_none hn hl, Dict.get_ok] at h
    exact absurd (Dict.get?_isSome.1 (by rw [h]; rfl)) hblank
  | some K =>
    obtain ⟨v', hv', hlook⟩ := Cond.lookup_dict_some hn hl
    rw [hlook] at h
    cases h
    obtain ⟨d1, k, d2, hd, hK, _⟩ := get?_canonicalizeDict hv'
    obtain ⟨_, hsub, hmax⟩ := lastBest_some hn hl
    refine ⟨k, by rw [hd]; simp, by rw [hK]; exact hsub, ?_⟩
    intro kv hkv hs
    rw [hK]
    refine hmax _ ?_ hs
    rw [mem_keys_canonicalizeDict]
    exact ⟨kv.1, List.mem_map.2 ⟨kv, hkv, rfl⟩, rfl⟩

theorem lookupTuple_mostSpecific {α : Type} (raw : Dict String (List α)) (hb : NoBlankKey raw)
    (hne : raw ≠ []) (W : Conds) (v : List α)
    (h : (RawCond.dict raw).canonicalize.lookupTuple W = .ok v) : MostSpecific raw W v := by
  have hne' : canonicalizeDict raw ≠ [] := by
    obtain ⟨kv, l, rfl⟩ := List.exists_cons_of_ne_nil hne
    intro h0
    have : canonicalizeCondition kv.1 ∈ Dict.keys (canonicalizeDict (kv :: l)) := by
      rw [mem_keys_canonicalizeDict]
      exact ⟨kv.1, by simp [Dict.keys], rfl⟩
    rw [h0] at this
    simp [Dict.keys] at this
  apply lookup_mostSpecific raw hb W v
  simp only [RawCond.canonicalize] at h ⊢
  rwa [Cond.lookupTuple_dict _ _ hne'] at h

/-- C03: for a skill constructed from tables of variants, every specification lookup that succeeds
returns a most specific matching variant of the table given by the user.  (The damage table is
covered here for skills without AoE drop-off; with drop-off the table itself grows, see C07.) -/
theorem C03_most_specific_variant (r : RawSkill) (s : Skill) (hs : mkSkill r = .ok s)
    (m : SkillModifier) :
    (∀ raw v, r.aoeDropoff = none → r.damageSpec = .dict raw → NoBlankKey raw →
      s.getDamageSpec m = .ok v → MostSpecific raw m.withCondition v) ∧
    (∀ raw v, r.timingSpec = .dict raw → NoBlankKey raw →
      s.getTimingSpec m = .ok v → MostSpecific raw m.withCondition v) ∧
    (∀ raw v, r.buffSpec = .dict raw → NoBlankKey raw →
      s.getBuffSpec m = .ok v → MostSpecific raw m.withCondition v) ∧
    (∀ raw v, r.debuffSpec = .dict raw → NoBlankKey raw →
      s.getDebuffSpec m = .ok v → MostSpecific raw m.withCondition v) ∧
    (∀ raw v, r.comboSpec = .dict raw → raw ≠ [] → NoBlankKey raw →
      s.getComboSpec m = .ok v → MostSpecific raw m.withCondition v) ∧
    (∀ raw v, r.jobResourceSpec = .dict raw → raw ≠ [] → NoBlankKey raw →
      s.getJobResourceSpec m = .ok v → MostSpecific raw m.withCondition v) ∧
    (∀ raw v, r.followUpSkills = .dict raw → raw ≠ [] → NoBlankKey raw →
      s.getFollowUpSkills m = .ok v → MostSpecific raw m.withCondition v) := by
  unfold mkSkill at hs
  obtain ⟨ds, hds, hs⟩ := Py.bind_eq_ok.1 hs
  simp only [Py.pure_eq, Except.ok.injEq] at hs
  subst hs
  refine ⟨?_, ?_, ?_, ?_, ?_, ?_, ?_⟩
  · intro raw v hd hr hb h
    rw [hd] at hds
    simp [processAoeDropoff] at hds
    subst hds
    simp only [SkillCore.getDamageSpec, hr] at h
    exact lookup_mostSpecific raw hb _ v h
  · intro raw v hr hb h
    simp only [SkillCore.getTimingSpec, hr] at h
    exact lookup_mostSpecific raw hb _ v h
  · intro raw v hr hb h
    simp only [SkillCore.getBuffSpec, hr] at h
    exact lookup_mostSpecific raw hb _ v h
  · intro raw v hr hb h
    simp only [SkillCore.getDebuffSpec, hr] at h
    exact lookup_mostSpecific raw hb _ v h
  · intro raw v hr hne hb h
    simp only [SkillCore.getComboSpec, hr] at h
    exact lookupTuple_mostSpecific raw hb hne _ v h
  · intro raw v hr hne hb h
    simp only [SkillCore.getJobResourceSpec, hr] at h
    exact lookupTuple_mostSpecific raw hb hne _ v h
  · intro raw v hr hne hb h
    simp only [Skill.getFollowUpSkills, hr] at h
    exact lookupTuple_mostSpecific raw hb hne _ v h

/-- C03: when all variants are declared under different condition sets and the best match is unique,
that variant is returned, whatever the declaration order. -/
theorem C03_unique_order_independent {α : Type} (raw raw' : Dict String α) (hp : raw.Perm raw')
    (hd : DistinctVariants raw) (W : Conds) (k : String) (v : α) (hkv : (k, v) ∈ raw)
    (hsub : canonicalizeCondition k ⊆ W)
    (huniq : ∀ kv ∈ raw, canonicalizeCondition kv.1 ⊆ W → kv = (k, v) ∨
      (canonicalizeCondition kv.1).card < (canonicalizeCondition k).card) :
    (RawCond.dict raw).canonicalize.lookup W = .ok v ∧
    (RawCond.dict raw').canonicalize.lookup W = .ok v := by
  have main : ∀ raw : Dict String α, DistinctVariants raw → (k, v) ∈ raw →
      (∀ kv ∈ raw, canonicalizeCondition kv.1 ⊆ W → kv = (k, v) ∨
        (canonicalizeCondition kv.1).card < (canonicalizeCondition k).card) →
      (RawCond.dict raw).canonicalize.lookup W = .ok v := by
    intro raw hd hkv huniq
    have hn := canonicalizeDict_nodup raw
    have hmemK : canonicalizeCondition k ∈ Dict.keys (canonicalizeDict raw) := by
      rw [mem_keys_canonicalizeDict]
      exact ⟨k, List.mem_map.2 ⟨_, hkv, rfl⟩, rfl⟩
    obtain ⟨K, hK⟩ := lastBest_isSome hn hmemK hsub
    obtain ⟨v', hv', hlook⟩ := Cond.lookup_dict_some hn hK
    obtain ⟨hKmem, hKsub, hKmax⟩ := lastBest_some hn hK
    have hKeq : K = canonicalizeCondition k := by
      rw [mem_keys_canonicalizeDict] at hKmem
      obtain ⟨q, hq, rfl⟩ := hKmem
      obtain ⟨kv, hkv', rfl⟩ := List.mem_map.1 hq
      rcases huniq kv hkv' hKsub with rfl | hlt
      · rfl
      · have := hKmax _ hmemK hsub
        omega
    simp only [RawCond.canonicalize]
    rw [hlook]
    rw [hKeq, canonicalizeDict_distinct hd] at hv'
    have hn2 : (Dict.keys (raw.map (fun kv => (canonicalizeCondition kv.1, kv.2)))).Nodup := by
      rw [← canonicalizeDict_distinct hd]
      exact hn
    have := Dict.get?_of_mem hn2 (k := canonicalizeCondition k) (v := v)
      (List.mem_map.2 ⟨(k, v), hkv, rfl⟩)
    rw [this] at hv'
    cases hv'
    rfl
  refine ⟨main raw hd hkv huniq, main raw' ?_ (hp.mem_iff.1 hkv)
    (fun kv h => huniq kv (hp.mem_iff.2 h))⟩
  exact ((hp.map _).nodup_iff).1 hd

example : (RawCond.dict [("", 1), ("No Combo", 2), ("No Combo, Buffed", 3)]).canonicalize.lookup
    {"Buffed", "No Combo", "x"} = .ok (3 : ℕ) := by decide +kernel

/-! ## C04: ambiguous variants are reported -/

/-- C04 is false: with variants `A` and `B` and both conditions active, neither is more specific,
and the lookup silently returns one of them (the last declared). -/
theorem C04_ambiguity_refuted :
    ∃ (raw : Dict String ℕ) (W : Conds) (v : ℕ), DistinctVariants raw ∧
      MostSpecific raw W 1 ∧ MostSpecific raw W 2 ∧
      (RawCond.dict raw).canonicalize.lookup W = .ok v := by
  refine ⟨[("A", 1), ("B", 2)], {"A", "B"}, 2, ?_, ?_, ?_, ?_⟩
  · unfold DistinctVariants
    decide +kernel
  · refine ⟨"A", by simp, by decide +kernel, ?_⟩
    decide +kernel
  · refine ⟨"B", by simp, by decide +kernel, ?_⟩
    decide +kernel
  · decide +kernel

/-- C04, general form of the failure: the assertion in the lookup never fires, for any table and any
conditions.  What is returned instead is stated in `C04_last_declared_wins_partial`. -/
theorem C04_never_reported_partial {α : Type} (raw : Dict String α) (W : Conds) :
    (RawCond.dict raw).canonicalize.lookup W ≠ .error .assertionError := by
  have hn := canonicalizeDict_nodup raw
  simp only [RawCond.canonicalize, Cond.lookup, getBestKey_eq W _ hn, Py.ok_bind]
  intro h
  have := (Dict.get_error.1 h).1
  cases this

theorem lastBest_last (W : Conds) (l r : List Conds) (K : Conds) (hK : K ⊆ W)
    (hl : ∀ b, lastBest W l = some b → b.card ≤ K.card)
    (hr : ∀ k ∈ r, k ⊆ W → k.card < K.card) : lastBest W (l ++ K :: r) = some K := by
  have h0 : lastBest W (l ++ [K]) = some K := by
    rw [lastBest_append]
    simp only [List.foldl_cons, List.foldl_nil, if_pos hK]
    cases h : lastBest W l with
    | none => rfl
    | some b => simp [hl b h]
  have h1 : l ++ K :: r = (l ++ [K]) ++ r := by simp
  rw [h1, lastBest_append, h0]
  clear h1
  clear h0
  induction r with
  | nil => rfl
  | cons k r ih =>
    rw [List.foldl_cons]
    by_cases hk : k ⊆ W
    · have := hr k (by simp) hk
      rw [if_pos hk]
      simp only [not_le.2 this, if_false]
      exact ih (fun k hk => hr k (by simp [hk]))
    · rw [if_neg hk]
      exact ih (fun k hk => hr k (by simp [hk]))

/-- C04, what happens instead: among equally good matches the one declared last is used.
Partial: the property asks for an error. -/
theorem C04_last_declared_wins_partial {α : Type} (l r : Dict String α) (k : String) (v : α)
    (hd : DistinctVariants (l ++ (k, v) :: r)) (W : Conds) (hk : canonicalizeCondition k ⊆ W)
    (hl : ∀ kv ∈ l, canonicalizeCondition kv.1 ⊆ W →
      (canonicalizeCondition kv.1).card ≤ (canonicalizeCondition k).card)
    (hr : ∀ kv ∈ r, canonicalizeCondition kv.1 ⊆ W →
      (canonicalizeCondition kv.1).card < (canonicalizeCondition k).card) :
    (RawCond.dict (l ++ (k, v) :: r)).canonicalize.lookup W = .ok v := by
  have hn := canonicalizeDict_nodup (l ++ (k, v) :: r)
  have hkeys : Dict.keys (canonicalizeDict (l ++ (k, v) :: r)) =
      l.map (fun kv => canonicalizeCondition kv.1) ++ canonicalizeCondition k ::
        r.map (fun kv => canonicalizeCondition kv.1) := by
    rw [canonicalizeDict_distinct hd]
    simp [Dict.keys, Function.comp_def]
  have hlast : lastBest W (Dict.keys (canonicalizeDict (l ++ (k, v) :: r))) =
      some (canonicalizeCondition k) := by
    rw [hkeys]
    refine lastBest_last W _ _ _ hk ?_ ?_
    · intro b hb
      have hnl : (l.map (fun kv => canonicalizeCondition kv.1)).Nodup := by
        rw [hkeys] at hn
        exact (List.nodup_append.1 hn).1
      obtain ⟨hm, hs, _⟩ := lastBest_some hnl hb
      obtain ⟨kv, hkv, rfl⟩ := List.mem_map.1 hm
      exact hl kv hkv hs
    · intro b hb hs
      obtain ⟨kv, hkv, rfl⟩ := List.mem_map.1 hb
      exact hr kv hkv hs
  obtain ⟨v', hv', hlook⟩ := Cond.lookup_dict_some hn hlast
  simp only [RawCond.canonicalize]
  rw [hlook]
  rw [canonicalizeDict_distinct hd] at hv' hn
  rw [Dict.get?_of_mem hn (k := canonicalizeCondition k) (v := v)
    (List.mem_map.2 ⟨(k, v), by simp, rfl⟩)] at hv'
  cases hv'
  rfl

example : (RawCond.dict [("", 0), ("B", 2), ("A", 1), ("C", 3)]).canonicalize.lookup {"A", "B"} =
    .ok (1 : ℕ) := by decide +kernel

/-! ## C05: variant lookup is total when a default exists -/

/-- C05 for any table of variants: a default makes the lookup total. -/
theorem lookup_total {α : Type} (raw : Dict String α) (v : α) (hd : ("", v) ∈ raw) (W : Conds) :
    ∃ w, (RawCond.dict raw).canonicalize.lookup W = .ok w := by
  have hn := canonicalizeDict_nodup raw
  have hmem : (∅ : Conds) ∈ Dict.keys (canonicalizeDict raw) := by
    rw [mem_keys_canonicalizeDict]
    exact ⟨"", List.mem_map.2 ⟨_, hd, rfl⟩, rfl⟩
  obtain ⟨K, hK⟩ := lastBest_isSome hn hmem (Finset.empty_subset W)
  obtain ⟨w, _, hw⟩ := Cond.lookup_dict_some hn hK
  exact ⟨w, hw⟩

theorem lookupTuple_total {α : Type} (raw : Dict String (List α)) (v : List α)
    (hd : ("", v) ∈ raw) (W : Conds) :
    ∃ w, (RawCond.dict raw).canonicalize.lookupTuple W = .ok w := by
  by_cases h0 : canonicalizeDict raw = []
  · refine ⟨[], ?_⟩
    simp [RawCond.canonicalize, h0, Cond.lookupTuple]
  · obtain ⟨w, hw⟩ := lookup_total raw v hd W
    refine ⟨w, ?_⟩
    simp only [RawCond.canonicalize] at hw ⊢
    rw [Cond.lookupTuple_dict _ _ h0]
    exact hw

/-- C05: a skill with a default variant can be looked up under every modifier without error.
Partial: channeling specifications are excluded (see `C05_channeling_refuted`); the damage table is
covered for skills without AoE drop-off. -/
theorem C05_total_with_default_partial (r : RawSkill) (s : Skill) (hs : mkSkill r = .ok s)
    (m : SkillModifier) :
    (∀ raw v, r.aoeDropoff = none → r.damageSpec = .dict raw → ("", v) ∈ raw →
      ∃ w, s.getDamageSpec m = .ok w) ∧
    (∀ raw v, r.timingSpec = .dict raw → ("", v) ∈ raw → ∃ w, s.getTimingSpec m = .ok w) ∧
    (∀ raw v, r.buffSpec = .dict raw → ("", v) ∈ raw → ∃ w, s.getBuffSpec m = .ok w) ∧
    (∀ raw v, r.debuffSpec = .dict raw → ("", v) ∈ raw → ∃ w, s.getDebuffSpec m = .ok w) ∧
    (∀ raw v, r.comboSpec = .dict raw → ("", v) ∈ raw → ∃ w, s.getComboSpec m = .ok w) ∧
    (∀ raw v, r.jobResourceSpec = .dict raw → ("", v) ∈ raw →
      ∃ w, s.getJobResourceSpec m = .ok w) ∧
    (∀ raw v, r.followUpSkills = .dict raw → ("", v) ∈ raw →
      ∃ w, s.getFollowUpSkills m = .ok w) := by
  unfold mkSkill at hs
  obtain ⟨ds, hds, hs⟩ := Py.bind_eq_ok.1 hs
  simp only [Py.pure_eq, Except.ok.injEq] at hs
  subst hs
  refine ⟨?_, ?_, ?_, ?_, ?_, ?_, ?_⟩
  · intro raw v hd hr hm
    rw [hd] at hds
    simp [processAoeDropoff] at hds
    subst hds
    simp only [SkillCore.getDamageSpec, hr]
    exact lookup_total raw v hm _
  · intro raw v hr hm
    simp only [SkillCore.getTimingSpec, hr]
    exact lookup_total raw v hm _
  · intro raw v hr hm
    simp only [SkillCore.getBuffSpec, hr]
    exact lookup_total raw v hm _
  · intro raw v hr hm
    simp only [SkillCore.getDebuffSpec, hr]
    exact lookup_total raw v hm _
  · intro raw v hr hm
    simp only [SkillCore.getComboSpec, hr]
    exact lookupTuple_total raw v hm _
  · intro raw v hr hm
    simp only [SkillCore.getJobResourceSpec, hr]
    exact lookupTuple_total raw v hm _
  · intro raw v hr hm
    simp only [Skill.getFollowUpSkills, hr]
    exact lookupTuple_total raw v hm _

example : ∃ s, mkSkill
    { name := "x",
      timingSpec := .dict [("", some { baseCastTime := 0 }), ("Fast", none)] } = .ok s := ⟨_, rfl⟩

/-- C05: without a default, the lookup raises, and raises `KeyError`, exactly when no variant
matches. -/
theorem C05_keyError_iff {α : Type} (raw : Dict String α) (hb : NoBlankKey raw) (W : Conds)
    (e : PyErr) :
    (RawCond.dict raw).canonicalize.lookup W = .error e ↔
      e = .keyError ∧ ∀ kv ∈ raw, ¬ canonicalizeCondition kv.1 ⊆ W := by
  have hn := canonicalizeDict_nodup raw
  have hblank : ({""} : Conds) ∉ Dict.keys (canonicalizeDict raw) := by
    rw [mem_keys_canonicalizeDict]
    rintro ⟨k, hk, he⟩
    obtain ⟨kv, hkv, rfl⟩ := List.mem_map.1 hk
    exact hb kv hkv he
  simp only [RawCond.canonicalize]
  cases hl : lastBest W (Dict.keys (canonicalizeDict raw)) with
  | none =>
    rw [Cond.lookup_dict_none hn hl, Dict.get_error]
    have hno := lastBest_none hn hl
    constructor
    · rintro ⟨he, _⟩
      refine ⟨he, ?_⟩
      intro kv hkv
      apply hno
      rw [mem_keys_canonicalizeDict]
      exact ⟨kv.1, List.mem_map.2 ⟨kv, hkv, rfl⟩, rfl⟩
    · rintro ⟨he, _⟩
      exact ⟨he, hblank⟩
  | some K =>
    obtain ⟨v', hv', hlook⟩ := Cond.lookup_dict_some hn hl
    obtain ⟨hmem, hsub, _⟩ := lastBest_some hn hl
    rw [hlook]
    constructor
    · intro h
      cases h
    · rintro ⟨_, h⟩
      rw [mem_keys_canonicalizeDict] at hmem
      obtain ⟨k, hk, rfl⟩ := hmem
      obtain ⟨kv, hkv, rfl⟩ := List.mem_map.1 hk
      exact absurd hsub (h kv hkv)

example : NoBlankKey [("A", 1), ("B, C", 2)] ∧
    (RawCond.dict [("A", 1), ("B, C", 2)]).canonicalize.lookup {"B"} =
      (.error .keyError : Py ℕ) := by
  refine ⟨?_, by decide +kernel⟩
  unfold NoBlankKey
  decide +kernel

/-- C05 is false for channeling specifications: `__post_init__` does not canonicalise their
conditions, so every lookup in a table with a default raises `AttributeError`. -/
theorem C05_channeling_refuted (r : RawSkill) (s : Skill) (hs : mkSkill r = .ok s)
    (raw : Dict String (Option ChannelingSpec)) (hr : r.channelingSpec = .dict raw)
    (v : Option ChannelingSpec) (hd : ("", v) ∈ raw) (m : SkillModifier) :
    s.getChannelingSpec m = .error .attributeError := by
  unfold mkSkill at hs
  obtain ⟨ds, hds, hs⟩ := Py.bind_eq_ok.1 hs
  simp only [Py.pure_eq, Except.ok.injEq] at hs
  subst hs
  cases raw with
  | nil => simp at hd
  | cons kv raw => simp [SkillCore.getChannelingSpec, hr]

example : ∃ s, mkSkill { name := "x", channelingSpec := .dict [("", some { duration := 5 })] } = .ok s :=
  ⟨_, rfl⟩

/-! ## C06: irrelevant conditions do not change the variant -/

/-- C06: activating a condition that no variant mentions leaves the lookup unchanged. -/
theorem C06_irrelevant_condition {α : Type} (raw : Dict String α) (c : String)
    (hc : ∀ kv ∈ raw, c ∉ canonicalizeCondition kv.1) (W : Conds) :
    (RawCond.dict raw).canonicalize.lookup (insert c W) = (RawCond.dict raw).canonicalize.lookup W := by
  have hn := canonicalizeDict_nodup raw
  simp only [RawCond.canonicalize, Cond.lookup, getBestKey_eq _ _ hn]
  rw [lastBest_congr (W := insert c W) (W' := W)]
  intro K hK
  rw [mem_keys_canonicalizeDict] at hK
  obtain ⟨k, hk, rfl⟩ := hK
  obtain ⟨kv, hkv, rfl⟩ := List.mem_map.1 hk
  constructor
  · intro h x hx
    rcases Finset.mem_insert.1 (h hx) with rfl | h'
    · exact absurd hx (hc kv hkv)
    · exact h'
  · intro h
    exact h.trans (Finset.subset_insert _ _)

/-- C06 for single (unconditional) specifications: conditions never matter. -/
theorem C06_single {α : Type} (a : α) (W W' : Conds) :
    (RawCond.single a).canonicalize.lookup W = (RawCond.single a).canonicalize.lookup W' := rfl

example : (RawCond.dict [("", 1), ("No Combo", 2)]).canonicalize.lookup {"No Combo", "5 Ninki"} =
    .ok (2 : ℕ) := by decide +kernel

/-! ## C07: AoE damage drop-off -/

/-- C07: with drop-off `x`, the variant used for the `n`-th target (`2 ≤ n ≤ 9`) is the variant used
for the primary target under the same other conditions, with `(1-x)` times its potency.
Partial: only for damage tables (not single specifications) and at most nine targets, see
`C07_tenth_target_refuted` and `C07_single_spec_refuted`. -/
theorem C07_dropoff_partial (r : RawSkill) (s : Skill) (hs : mkSkill r = .ok s) (x : ℚ)
    (hx : r.aoeDropoff = some x) (l : List (String × DamageSpec))
    (hr : r.damageSpec = .dict (l.map (fun ks => (ks.1, some ks.2))))
    (hd : DistinctVariants l) (hb : NoBlankKey l)
    (ht : ∀ ks ∈ l, ∀ n, 2 ≤ n → n ≤ 9 → targetCond n ∉ canonicalizeCondition ks.1)
    (m mt : SkillModifier) (hm : ∀ n, 2 ≤ n → n ≤ 9 → targetCond n ∉ m.withCondition)
    (n : ℕ) (hn2 : 2 ≤ n) (hn9 : n ≤ 9)
    (hmt : mt.withCondition = insert (targetCond n) m.withCondition)
    (spec : DamageSpec) (hspec : s.getDamageSpec m = .ok (some spec)) :
    s.getDamageSpec mt = .ok (some { spec with potency := (1 - x) * spec.potency }) := by
  have hdt : ∀ n, n ∈ dropTargets ↔ 2 ≤ n ∧ n ≤ 9 := by
    intro n
    simp only [dropTargets, List.mem_cons, List.not_mem_nil, or_false]
    omega
  have hnd : n ∈ dropTargets := (hdt n).2 ⟨hn2, hn9⟩
  set Ks := l.map (fun ks => canonicalizeCondition ks.1) with hKs
  have hNT : NoTargets Ks := by
    intro K hK k hk
    obtain ⟨ks, hks, rfl⟩ := List.mem_map.1 hK
    exact ht ks hks k ((hdt k).1 hk).1 ((hdt k).1 hk).2
  have hW : ∀ k ∈ dropTargets, targetCond k ∉ m.withCondition := fun k hk =>
    hm k ((hdt k).1 hk).1 ((hdt k).1 hk).2
  have htab := mkSkill_dropoff hs hx hr hd hNT
  set rows := (allDropRows x l).map (fun kv => (canonicalizeCondition kv.1, kv.2)) with hrows
  set base : Dict Conds (Option DamageSpec) :=
    l.map (fun ks => (canonicalizeCondition ks.1, some ks.2)) with hbase
  have hkeys : Dict.keys (base ++ rows) = Ks ++ dropConds Ks := by
    rw [keys_append]
    congr 1
    · simp [hbase, hKs, Dict.keys, Function.comp_def]
    · rw [hKs, ← allDropRows_conds x l]
      simp [hrows, Dict.keys, Function.comp_def]
  have hkn : (Dict.keys (base ++ rows)).Nodup := by
    rw [hkeys]
    exact nodup_dropConds hd hNT
  simp only [SkillCore.getDamageSpec, htab] at hspec ⊢
  rw [hmt]
  cases hl : lastBest m.withCondition Ks with
  | none =>
    exfalso
    have h1 : lastBest m.withCondition (Dict.keys (base ++ rows)) = none := by
      rw [hkeys, lastBest_nodrop hW, hl]
    rw [Cond.lookup_dict_none hkn h1, Dict.get_ok] at hspec
    have hmem : ({""} : Conds) ∈ Dict.keys (base ++ rows) :=
      Dict.get?_isSome.1 (by rw [hspec]; rfl)
    rw [hkeys] at hmem
    rcases List.mem_append.1 hmem with h | h
    · obtain ⟨ks, hks, he⟩ := List.mem_map.1 h
      exact hb ks hks he
    · unfold dropConds at h
      obtain ⟨K', hK', hJ⟩ := List.mem_flatMap.1 h
      obtain ⟨k, hk, he⟩ := List.mem_map.1 hJ
      have : targetCond k ∈ ({""} : Conds) := by rw [← he]; simp
      have hne : ∀ k ∈ dropTargets, targetCond k ∉ ({""} : Conds) := by decide +kernel
      exact hne k hk this
  | some K =>
    have h1 : lastBest m.withCondition (Dict.keys (base ++ rows)) = some K := by
      rw [hkeys, lastBest_nodrop hW, hl]
    have h2 : lastBest (insert (targetCond n) m.withCondition) (Dict.keys (base ++ rows)) =
        some (insert (targetCond n) K) := by
      rw [hkeys, lastBest_drop hNT hW hnd, hl]
      rfl
    obtain ⟨v1, hv1, hlook1⟩ := Cond.lookup_dict_some hkn h1
    obtain ⟨v2, hv2, hlook2⟩ := Cond.lookup_dict_some hkn h2
    rw [hlook1] at hspec
    cases hspec
    rw [hlook2]
    congr 1
    -- `K` is a declared variant
    have hKmem : K ∈ Ks := by
      rw [lastBest_eq_lastMax] at hl
      exact (List.mem_filter.1 (lastMax_mem hl)).1
    obtain ⟨ks, hks, hKe⟩ := List.mem_map.1 hKmem
    have hbmem : (K, some ks.2) ∈ base ++ rows := by
      rw [List.mem_append]
      left
      rw [hbase]
      exact List.mem_map.2 ⟨ks, hks, by rw [← hKe]⟩
    have e1 := Dict.get?_of_mem hkn hbmem
    rw [hv1] at e1
    simp only [Option.some.injEq] at e1
    subst e1
    have hrmem : (insert (targetCond n) K, some (dropSpec x ks.2)) ∈ base ++ rows := by
      rw [List.mem_append]
      right
      rw [hrows]
      refine List.mem_map.2 ⟨(dropoffKey ks.1 n, some (dropSpec x ks.2)), ?_, ?_⟩
      · clear_value Ks
        clear hrows hbase htab hkeys hkn hv1 hv2 hlook1 hlook2 h1 h2 hbmem hr hd hb ht hKs hNT hl hKmem
        clear rows base
        induction l with
        | nil => simp at hks
        | cons a l ih =>
          rcases List.mem_cons.1 hks with rfl | h
          · simp only [allDropRows, List.mem_append]
            left
            exact List.mem_map.2 ⟨n, hnd, rfl⟩
          · simp only [allDropRows, List.mem_append]
            right
            exact ih h
      · simp only [Prod.mk.injEq, and_true]
        rw [canonicalize_dropoffKey ks.1 hnd, hKe]
    have e2 := Dict.get?_of_mem hkn hrmem
    rw [hv2] at e2
    simp only [Option.some.injEq] at e2
    rw [e2]
    rfl

/-- The skill used in the examples for C07: two variants, drop-off 1/2. -/
def dropoffExample : RawSkill :=
  { name := "AoE", aoeDropoff := some (1/2),
    damageSpec := .dict [("", some { potency := 400 }), ("No Combo", some { potency := 200 })] }

example : ∃ s, mkSkill dropoffExample = .ok s ∧
    s.getDamageSpec { withCondition := {"No Combo", "Target 1"} } = .ok (some { potency := 200 }) ∧
    s.getDamageSpec { withCondition := {"No Combo", "Target 1", "Target 3"} } =
      .ok (some { potency := 100 }) := by
  refine ⟨_, rfl, ?_, ?_⟩ <;> decide +kernel

/-- C07 is false for the tenth target: it takes full damage. -/
theorem C07_tenth_target_refuted :
    ∃ (s : Skill), mkSkill dropoffExample = .ok s ∧
      s.getDamageSpec { withCondition := {targetCond 10} } = .ok (some { potency := 400 }) := by
  refine ⟨_, rfl, ?_⟩
  decide +kernel

/-- C07 is false for a single (non-dictionary) damage specification: the drop-off is silently
ignored for every target. -/
theorem C07_single_spec_refuted (r : RawSkill) (s : Skill) (hs : mkSkill r = .ok s)
    (spec : DamageSpec) (hr : r.damageSpec = .single (some spec)) (x : ℚ)
    (_hx : r.aoeDropoff = some x) (m : SkillModifier) :
    s.getDamageSpec m = .ok (some spec) := by
  unfold mkSkill at hs
  obtain ⟨ds, hds, hs⟩ := Py.bind_eq_ok.1 hs
  simp only [Py.pure_eq, Except.ok.injEq] at hs
  subst hs
  rw [hr, _hx] at hds
  simp [processAoeDropoff] at hds
  subst hds
  rfl

example : ∃ s, mkSkill
    { name := "x", aoeDropoff := some (1/2),
      damageSpec := .single (some { potency := 100 }) } = .ok s := ⟨_, rfl⟩

end Ama
