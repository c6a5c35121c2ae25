import Verif.Lemmas.BestKey
import Verif.Lemmas.StatusEffects

/-!
# Tables of specifications: what lookups can give
-/

namespace Ama

/-- All values of a table. -/
def Cond.values {α : Type} : Cond α → List α
  | .single a => [a]
  | .dict d => d.map (·.2)

/-- All values of a table with string keys. -/
def RawCond.values {α : Type} : RawCond α → List α
  | .single a => [a]
  | .dict d => d.map (·.2)

/-- A table that answers every question. -/
def Cond.answers {α : Type} : Cond α → Bool
  | .single _ => true
  | .dict d => decide ((∅ : Conds) ∈ Dict.keys d) && decide (Dict.keys d).Nodup

/-- A table with string keys that has a default. -/
def RawCond.answers {α : Type} : RawCond α → Bool
  | .single _ => true
  | .dict d => decide ("" ∈ Dict.keys d)

section

variable {α : Type}

theorem Cond.lookup_mem {c : Cond α} {W : Conds} {x : α} (h : c.lookup W = .ok x) : x ∈ c.values := by
  cases c with
  | single a =>
    cases h
    simp [Cond.values]
  | dict d =>
    simp only [Cond.lookup] at h
    obtain ⟨k, _, h⟩ := Py.bind_eq_ok.1 h
    exact List.mem_map.2 ⟨_, Dict.mem_of_get? (Dict.get_ok.1 h), rfl⟩

theorem Cond.lookupTuple_mem {c : Cond (List α)} {W : Conds} {x : List α} (h : c.lookupTuple W = .ok x) :
    x ∈ c.values ∨ x = [] := by
  cases c with
  | single a =>
    cases h
    exact Or.inl (by simp [Cond.values])
  | dict d =>
    by_cases hd : d = []
    · subst hd
      cases h
      exact Or.inr rfl
    · rw [Cond.lookupTuple_dict d W hd] at h
      exact Or.inl (Cond.lookup_mem h)

theorem Cond.lookup_answers {c : Cond α} (h : c.answers = true) (W : Conds) : ∃ x, c.lookup W = .ok x := by
  cases c with
  | single a => exact ⟨a, rfl⟩
  | dict d =>
    simp only [Cond.answers, Bool.and_eq_true, decide_eq_true_eq] at h
    obtain ⟨K, hK⟩ := lastBest_isSome h.2 h.1 (Finset.empty_subset W)
    obtain ⟨w, _, hw⟩ := Cond.lookup_dict_some h.2 hK
    exact ⟨w, hw⟩

theorem Cond.lookupTuple_answers {c : Cond (List α)} (h : c.answers = true) (W : Conds) :
    ∃ x, c.lookupTuple W = .ok x := by
  cases c with
  | single a => exact ⟨a, rfl⟩
  | dict d =>
    by_cases hd : d = []
    · subst hd
      exact ⟨[], rfl⟩
    · rw [Cond.lookupTuple_dict d W hd]
      exact Cond.lookup_answers h W

theorem RawCond.values_canonicalize {r : RawCond α} {x : α} (h : x ∈ r.canonicalize.values) :
    x ∈ r.values := by
  cases r with
  | single a => exact h
  | dict d =>
    simp only [RawCond.canonicalize, Cond.values, List.mem_map] at h
    obtain ⟨⟨K, v⟩, hm, rfl⟩ := h
    obtain ⟨d1, k, d2, rfl, _⟩ := get?_canonicalizeDict (Dict.get?_of_mem (canonicalizeDict_nodup d) hm)
    simp [RawCond.values]

theorem RawCond.answers_canonicalize {r : RawCond α} (h : r.answers = true) :
    r.canonicalize.answers = true := by
  cases r with
  | single a => rfl
  | dict d =>
    simp only [RawCond.answers, decide_eq_true_eq] at h
    simp only [RawCond.canonicalize, Cond.answers, Bool.and_eq_true, decide_eq_true_eq]
    exact ⟨mem_keys_canonicalizeDict.2 ⟨"", h, rfl⟩, canonicalizeDict_nodup d⟩

end

/-! ## AoE drop-off -/

/-- Drop-off applied to a table all of whose values are specifications with a property that it keeps:
it succeeds, the keys stay, and the values have the property. -/
theorem dropoffDict_ok {x : ℚ} {P : DamageSpec → Prop}
    (hP : ∀ s, P s → P { s with potency := (1 - x) * s.potency })
    {d : Dict String (Option DamageSpec)}
    (hd : ∀ kv ∈ d, ∃ s, kv.2 = some s ∧ P s) :
    ∃ d', processAoeDropoffDict x d = .ok d' ∧ (∀ k ∈ Dict.keys d, k ∈ Dict.keys d') ∧
      ∀ kv ∈ d', ∃ s, kv.2 = some s ∧ P s := by
  have step : ∀ (key : String) (n : ℕ) (d : Dict String (Option DamageSpec)), key ∈ Dict.keys d →
      (∀ kv ∈ d, ∃ s, kv.2 = some s ∧ P s) →
      ∃ d', dropoffStep x key d n = .ok d' ∧ (∀ k ∈ Dict.keys d, k ∈ Dict.keys d') ∧
        ∀ kv ∈ d', ∃ s, kv.2 = some s ∧ P s := by
    intro key n d hk hd
    obtain ⟨v, hv⟩ := Option.isSome_iff_exists.1 (Dict.get?_isSome.2 hk)
    obtain ⟨s, hs, hPs⟩ := hd _ (Dict.mem_of_get? hv)
    cases hs
    refine ⟨_, by unfold dropoffStep; rw [Dict.get_ok.2 hv]; rfl, fun k h => ?_, fun kv h => ?_⟩
    · exact Dict.mem_keys_set.2 (Or.inr h)
    · rcases mem_set_imp h with h | rfl
      · exact hd kv h
      · exact ⟨_, rfl, hP s hPs⟩
  have inner : ∀ (key : String) (ns : List ℕ) (d : Dict String (Option DamageSpec)), key ∈ Dict.keys d →
      (∀ kv ∈ d, ∃ s, kv.2 = some s ∧ P s) →
      ∃ d', ns.foldlM (dropoffStep x key) d = .ok d' ∧ (∀ k ∈ Dict.keys d, k ∈ Dict.keys d') ∧
        ∀ kv ∈ d', ∃ s, kv.2 = some s ∧ P s := by
    intro key ns
    induction ns with
    | nil => exact fun d _ hd => ⟨d, rfl, fun _ h => h, hd⟩
    | cons n ns ih =>
      intro d hk hd
      obtain ⟨d1, h1, h2, h3⟩ := step key n d hk hd
      obtain ⟨d2, h4, h5, h6⟩ := ih d1 (h2 _ hk) h3
      exact ⟨d2, by rw [Py.foldlM_cons, h1]; exact h4, fun k h => h5 _ (h2 _ h), h6⟩
  have outer : ∀ (keys : List String) (d : Dict String (Option DamageSpec)), (∀ k ∈ keys, k ∈ Dict.keys d) →
      (∀ kv ∈ d, ∃ s, kv.2 = some s ∧ P s) →
      ∃ d', keys.foldlM (fun d key => [2, 3, 4, 5, 6, 7, 8, 9].foldlM (dropoffStep x key) d) d = .ok d' ∧
        (∀ k ∈ Dict.keys d, k ∈ Dict.keys d') ∧ ∀ kv ∈ d', ∃ s, kv.2 = some s ∧ P s := by
    intro keys
    induction keys with
    | nil => exact fun d _ hd => ⟨d, rfl, fun _ h => h, hd⟩
    | cons key keys ih =>
      intro d hk hd
      obtain ⟨d1, h1, h2, h3⟩ := inner key [2, 3, 4, 5, 6, 7, 8, 9] d (hk _ (by simp)) hd
      obtain ⟨d2, h4, h5, h6⟩ := ih d1 (fun k h => h2 _ (hk k (by simp [h]))) h3
      exact ⟨d2, by rw [Py.foldlM_cons, h1]; exact h4, fun k h => h5 _ (h2 _ h), h6⟩
  exact outer _ d (fun _ h => h) hd

/-- The keys stay whenever drop-off succeeds. -/
theorem dropoffDict_keys {x : ℚ} {d d' : Dict String (Option DamageSpec)}
    (h : processAoeDropoffDict x d = .ok d') : ∀ k ∈ Dict.keys d, k ∈ Dict.keys d' := by
  have step : ∀ {key : String} {n : ℕ} {d d' : Dict String (Option DamageSpec)},
      dropoffStep x key d n = .ok d' → ∀ k ∈ Dict.keys d, k ∈ Dict.keys d' := by
    intro key n d d' h k hk
    unfold dropoffStep at h
    obtain ⟨v, _, h⟩ := Py.bind_eq_ok.1 h
    cases v with
    | none => cases h
    | some s =>
      cases h
      exact Dict.mem_keys_set.2 (Or.inr hk)
  intro k hk
  refine Py.foldlM_inv (P := fun d => k ∈ Dict.keys d) hk ?_ h
  intro d1 key d2 _ hk h1
  exact Py.foldlM_inv (P := fun d => k ∈ Dict.keys d) hk (fun _ _ _ _ hk h => step h k hk) h1

end Ama
