import Verif.Model.Skill
import Verif.Spec.Conditions
import Verif.Lemmas.Py

/-!
# Lemmas about `get_best_key` and conditional lookups
-/

namespace Ama

open Spec

/-- The choice made by `get_best_key` on duplicate-free keys: the last maximal match. -/
def lastBest (W : Conds) (keys : List Conds) : Option Conds :=
  keys.foldl (fun acc k => if k ⊆ W then
    match acc with
    | none => some k
    | some b => if b.card ≤ k.card then some k else some b
    else acc) none

/-- Invariant connecting the loop of `get_best_key` with `lastBest`. -/
theorem bestKey_fold (W : Conds) (keys : List Conds) (hn : keys.Nodup) :
    keys.foldl (Utils.bestKeyStep W) { maxMatch := -1, bestKeys := [] } =
      (match lastBest W keys with
      | none => { maxMatch := -1, bestKeys := [] }
      | some k => { maxMatch := k.card, bestKeys := [k] }) ∧
    (∀ k, lastBest W keys = some k → BestMatch keys W k) ∧
    (lastBest W keys = none → ∀ k ∈ keys, ¬ k ⊆ W) := by
  induction keys using List.reverseRecOn with
  | nil => simp [lastBest]
  | append_singleton keys key ih =>
    rw [List.nodup_append] at hn
    obtain ⟨ih1, ih2, ih3⟩ := ih hn.1
    have hnew : key ∉ keys := fun h => hn.2.2 key h key (by simp) rfl
    have hlb : lastBest W (keys ++ [key]) = if key ⊆ W then
        match lastBest W keys with
        | none => some key
        | some b => if b.card ≤ key.card then some key else some b
        else lastBest W keys := by
      simp only [lastBest, List.foldl_append, List.foldl_cons, List.foldl_nil]
    rw [List.foldl_append, ih1, hlb]
    cases hb : lastBest W keys with
    | none =>
      have hno := ih3 hb
      by_cases hsub : key ⊆ W
      · have hcard : ¬ ((key.card : ℤ) < -1) := by omega
        have hc2 : (-1 : ℤ) < (W.card : ℤ) := by omega
        simp [Utils.bestKeyStep, hsub, hcard, hc2]
        refine ⟨by simp, hsub, ?_⟩
        intro k' hk' hs
        rcases List.mem_append.1 hk' with h | h
        · exact absurd hs (hno k' h)
        · simp at h
          rw [h]
      · have hcard : ¬ ((key.card : ℤ) < -1) := by omega
        simp [Utils.bestKeyStep, hsub, hcard]
        intro k hk
        rcases hk with h | rfl
        · exact hno k h
        · exact hsub
    | some b =>
      have hbm := ih2 b hb
      by_cases hsub : key ⊆ W
      · by_cases hle : b.card ≤ key.card
        · have hcard : ¬ ((key.card : ℤ) < (b.card : ℤ)) := by omega
          have hc2 : (b.card : ℤ) < (W.card : ℤ) := by
            by_contra hcon
            have h1 : W.card ≤ b.card := by omega
            have hbW : b = W := Finset.eq_of_subset_of_card_le hbm.2.1 h1
            have hkW : key = W := Finset.eq_of_subset_of_card_le hsub (by rw [← hbW]; exact hle)
            exact hnew (by rw [hkW, ← hbW]; exact hbm.1)
          simp [Utils.bestKeyStep, hsub, hcard, hc2, hle]
          refine ⟨by simp, hsub, ?_⟩
          intro k' hk' hs
          rcases List.mem_append.1 hk' with h | h
          · exact (hbm.2.2 k' h hs).trans hle
          · simp at h
            rw [h]
        · have hcard : ((key.card : ℤ) < (b.card : ℤ)) := by omega
          simp [Utils.bestKeyStep, hsub, hcard, hle]
          refine ⟨by simp [hbm.1], hbm.2.1, ?_⟩
          intro k' hk' hs
          rcases List.mem_append.1 hk' with h | h
          · exact hbm.2.2 k' h hs
          · simp at h
            rw [h]
            omega
      · have hstep : Utils.bestKeyStep W { maxMatch := (b.card : ℤ), bestKeys := [b] } key =
            { maxMatch := (b.card : ℤ), bestKeys := [b] } := by
          simp [Utils.bestKeyStep, hsub]
        simp [hstep, hsub]
        refine ⟨by simp [hbm.1], hbm.2.1, ?_⟩
        intro k' hk' hs
        rcases List.mem_append.1 hk' with h | h
        · exact hbm.2.2 k' h hs
        · simp at h
          rw [h] at hs
          exact absurd hs hsub

theorem getBestKey_eq (W : Conds) (keys : List Conds) (hn : keys.Nodup) :
    Utils.getBestKey keys W = .ok ((lastBest W keys).getD {""}) := by
  have h := (bestKey_fold W keys hn).1
  unfold Utils.getBestKey
  simp only [h]
  cases lastBest W keys <;> simp [SimConsts.DEFAULT_CONDITION]

theorem lastBest_some {W : Conds} {keys : List Conds} (hn : keys.Nodup) {k : Conds}
    (h : lastBest W keys = some k) : BestMatch keys W k := (bestKey_fold W keys hn).2.1 k h

theorem lastBest_none {W : Conds} {keys : List Conds} (hn : keys.Nodup)
    (h : lastBest W keys = none) : ∀ k ∈ keys, ¬ k ⊆ W := (bestKey_fold W keys hn).2.2 h

theorem lastBest_isSome {W : Conds} {keys : List Conds} (hn : keys.Nodup) {k : Conds}
    (hk : k ∈ keys) (hs : k ⊆ W) : ∃ b, lastBest W keys = some b := by
  cases h : lastBest W keys with
  | none => exact absurd hs (lastBest_none hn h k hk)
  | some b => exact ⟨b, rfl⟩

theorem lastBest_congr {W W' : Conds} {keys : List Conds}
    (h : ∀ k ∈ keys, k ⊆ W ↔ k ⊆ W') : lastBest W keys = lastBest W' keys := by
  unfold lastBest
  generalize (none : Option Conds) = acc
  induction keys generalizing acc with
  | nil => rfl
  | cons k keys ih =>
    simp only [List.foldl_cons]
    rw [if_congr (h k (by simp)) rfl rfl]
    exact ih (fun k' hk' => h k' (by simp [hk'])) _

/-- `lastBest` on a list whose tail block maps an injection: used for the AoE drop-off. -/
theorem lastBest_append (W : Conds) (l l' : List Conds) :
    lastBest W (l ++ l') = l'.foldl (fun acc k => if k ⊆ W then
      match acc with
      | none => some k
      | some b => if b.card ≤ k.card then some k else some b
      else acc) (lastBest W l) := by
  simp [lastBest]

section Canonical

variable {α : Type}

theorem canonicalizeDict_nodup (d : Dict String α) : (Dict.keys (canonicalizeDict d)).Nodup := by
  unfold canonicalizeDict
  have : ∀ (acc : Dict Conds α), (Dict.keys acc).Nodup →
      (Dict.keys (d.foldl (fun tmp kv => Dict.set tmp (Utils.canonicalizeCondition kv.1) kv.2) acc)).Nodup := by
    induction d with
    | nil => intro acc h; exact h
    | cons p d ih =>
      intro acc h
      exact ih _ (Dict.nodup_set h _ _)
  exact this [] (by simp [Dict.keys])

theorem canonicalizeDict_append (d : Dict String α) (k : String) (v : α) :
    canonicalizeDict (d ++ [(k, v)]) =
      Dict.set (canonicalizeDict d) (Utils.canonicalizeCondition k) v := by
  simp [canonicalizeDict]

theorem mem_keys_canonicalizeDict {d : Dict String α} {K : Conds} :
    K ∈ Dict.keys (canonicalizeDict d) ↔ ∃ k ∈ Dict.keys d, Utils.canonicalizeCondition k = K := by
  induction d using List.reverseRecOn with
  | nil => simp [canonicalizeDict, Dict.keys]
  | append_singleton d p ih =>
    obtain ⟨k, v⟩ := p
    rw [canonicalizeDict_append, Dict.mem_keys_set, ih]
    simp only [Dict.keys, List.map_append, List.map_cons, List.map_nil, List.mem_append,
      List.mem_singleton]
    constructor
    · rintro (rfl | ⟨q, hq, rfl⟩)
      · exact ⟨k, Or.inr rfl, rfl⟩
      · exact ⟨q, Or.inl hq, rfl⟩
    · rintro ⟨q, hq | rfl, rfl⟩
      · exact Or.inr ⟨q, hq, rfl⟩
      · exact Or.inl rfl

/-- A value found in the canonicalised dictionary was declared under a string with that canonical
form, and no later declaration has the same canonical form. -/
theorem get?_canonicalizeDict {d : Dict String α} {K : Conds} {v : α}
    (h : Dict.get? (canonicalizeDict d) K = some v) :
    ∃ d1 k d2, d = d1 ++ (k, v) :: d2 ∧ Utils.canonicalizeCondition k = K ∧
      ∀ kv ∈ d2, Utils.canonicalizeCondition kv.1 ≠ K := by
  induction d using List.reverseRecOn with
  | nil => simp [canonicalizeDict] at h
  | append_singleton d p ih =>
    obtain ⟨k, w⟩ := p
    rw [canonicalizeDict_append, Dict.get?_set] at h
    split_ifs at h with hk
    · cases h
      exact ⟨d, k, [], rfl, hk, by simp⟩
    · obtain ⟨d1, k1, d2, rfl, h1, h2⟩ := ih h
      refine ⟨d1, k1, d2 ++ [(k, w)], by simp, h1, ?_⟩
      intro kv hkv
      rcases List.mem_append.1 hkv with h' | h'
      · exact h2 kv h'
      · simp at h'
        rw [h']
        exact hk

end Canonical

/-- Outcome of a lookup in a duplicate-free dictionary. -/
theorem Cond.lookup_dict_some {α : Type} {d : Dict Conds α} (hn : (Dict.keys d).Nodup) {W k : Conds}
    (h : lastBest W (Dict.keys d) = some k) :
    ∃ v, Dict.get? d k = some v ∧ (Cond.dict d).lookup W = .ok v := by
  have hk := (lastBest_some hn h).1
  obtain ⟨v, hv⟩ := Option.isSome_iff_exists.1 (Dict.get?_isSome.2 hk)
  refine ⟨v, hv, ?_⟩
  simp only [Cond.lookup, getBestKey_eq W _ hn, h, Py.ok_bind, Option.getD_some]
  exact Dict.get_ok.2 hv

theorem Cond.lookup_dict_none {α : Type} {d : Dict Conds α} (hn : (Dict.keys d).Nodup) {W : Conds}
    (h : lastBest W (Dict.keys d) = none) :
    (Cond.dict d).lookup W = Dict.get d {""} := by
  simp [Cond.lookup, getBestKey_eq W _ hn, h]

theorem Cond.lookupTuple_dict {α : Type} (d : Dict Conds (List α)) (W : Conds) (hd : d ≠ []) :
    (Cond.dict d).lookupTuple W = (Cond.dict d).lookup W := by
  cases d with
  | nil => exact absurd rfl hd
  | cons p d => rfl

end Ama
