import Verif.Lemmas.Py
import Verif.Spec.Versions
import Mathlib.Data.String.Basic
import Mathlib.Tactic.Linarith

/-!
# Lemmas about patch lookups
-/

namespace Ama

theorem foldl_max_ge (l : List String) (k : String) :
    k ≤ l.foldl (fun m x => if m < x then x else m) k ∧
    (∀ x ∈ l, x ≤ l.foldl (fun m x => if m < x then x else m) k) ∧
    (l.foldl (fun m x => if m < x then x else m) k = k ∨
      l.foldl (fun m x => if m < x then x else m) k ∈ l) := by
  induction l generalizing k with
  | nil => simp
  | cons a l ih =>
    simp only [List.foldl_cons]
    obtain ⟨h1, h2, h3⟩ := ih (if k < a then a else k)
    have h4 : k ≤ (if k < a then a else k) := by
      split
      · exact le_of_lt ‹_›
      · exact le_refl _
    have h5 : a ≤ (if k < a then a else k) := by
      split
      · exact le_refl _
      · exact not_lt.1 ‹_›
    refine ⟨le_trans h4 h1, ?_, ?_⟩
    · intro x hx
      rcases List.mem_cons.1 hx with rfl | hx
      · exact le_trans h5 h1
      · exact h2 x hx
    · rcases h3 with h3 | h3
      · rw [h3]
        split
        · exact .inr (by simp)
        · exact .inl rfl
      · exact .inr (List.mem_cons_of_mem _ h3)

theorem getGreatestVal_ok {vals : List String} {q k : String} :
    Utils.getGreatestVal vals q = .ok k ↔ k ∈ vals ∧ k ≤ q ∧ ∀ k' ∈ vals, k' ≤ q → k' ≤ k := by
  unfold Utils.getGreatestVal
  split
  · next h =>
    constructor
    · intro h'; cases h'
    · rintro ⟨h1, h2, _⟩
      have : k ∈ vals.filter (fun k => decide (k ≤ q)) := List.mem_filter.2 ⟨h1, by simpa using h2⟩
      rw [h] at this
      simp at this
  · next a l h =>
    obtain ⟨h1, h2, h3⟩ := foldl_max_ge l a
    set M := l.foldl (fun m x => if m < x then x else m) a with hM
    have hmem : M ∈ vals.filter (fun k => decide (k ≤ q)) := by
      rw [h]
      rcases h3 with h3 | h3
      · rw [h3]; exact List.mem_cons_self
      · exact List.mem_cons_of_mem _ h3
    obtain ⟨m1, m2⟩ := List.mem_filter.1 hmem
    have m2 : M ≤ q := by simpa using m2
    have hall : ∀ k' ∈ vals, k' ≤ q → k' ≤ M := by
      intro k' hk hq
      have : k' ∈ vals.filter (fun k => decide (k ≤ q)) := List.mem_filter.2 ⟨hk, by simpa using hq⟩
      rw [h] at this
      rcases List.mem_cons.1 this with rfl | h'
      · exact h1
      · exact h2 _ h'
    constructor
    · intro h'
      injection h' with h'
      rw [← h']
      exact ⟨m1, m2, hall⟩
    · rintro ⟨k1, k2, k3⟩
      rw [le_antisymm (hall k k1 k2) (k3 M m1 m2)]

theorem getGreatestVal_error {vals : List String} {q : String} {e : PyErr} :
    Utils.getGreatestVal vals q = .error e ↔ e = .valueError ∧ ∀ k ∈ vals, q < k := by
  unfold Utils.getGreatestVal
  split
  · next h =>
    have : ∀ k ∈ vals, q < k := by
      intro k hk
      by_contra hc
      have : k ∈ vals.filter (fun k => decide (k ≤ q)) :=
        List.mem_filter.2 ⟨hk, by simpa using not_lt.1 hc⟩
      rw [h] at this
      simp at this
    constructor
    · intro h'; cases h'; exact ⟨rfl, this⟩
    · rintro ⟨rfl, _⟩; rfl
  · next a l h =>
    constructor
    · intro h'; cases h'
    · rintro ⟨_, h'⟩
      have : a ∈ vals.filter (fun k => decide (k ≤ q)) := by rw [h]; exact List.mem_cons_self
      obtain ⟨m1, m2⟩ := List.mem_filter.1 this
      exact absurd (h' a m1) (not_lt.2 (by simpa using m2))

theorem getGreatestDictKeyVal_some {ν : Type} {d : Dict String ν} {q : String} {v : ν} :
    Utils.getGreatestDictKeyVal d q = .ok (some v) ↔ Spec.NewestIn (· ≤ ·) d q v := by
  unfold Utils.getGreatestDictKeyVal Spec.NewestIn
  split
  · next e h =>
    obtain ⟨_, h⟩ := getGreatestVal_error.1 h
    constructor
    · intro h'; cases h'
    · rintro ⟨k, h1, h2, _⟩
      have : k ∈ Dict.keys d := Dict.get?_isSome.1 (by simp [h1])
      exact absurd (h k this) (not_lt.2 h2)
  · next k h =>
    obtain ⟨h1, h2, h3⟩ := getGreatestVal_ok.1 h
    rw [Py.bind_eq_ok]
    constructor
    · rintro ⟨w, hw, h'⟩
      simp only [Py.pure_eq, Except.ok.injEq, Option.some.injEq] at h'
      subst h'
      exact ⟨k, Dict.get_ok.1 hw, h2, h3⟩
    · rintro ⟨k', g1, g2, g3⟩
      have hk' : k' ∈ Dict.keys d := Dict.get?_isSome.1 (by simp [g1])
      have : k = k' := le_antisymm (g3 k h1 h2) (h3 k' hk' g2)
      subst this
      exact ⟨v, Dict.get_ok.2 g1, rfl⟩

theorem getGreatestDictKeyVal_none {ν : Type} {d : Dict String ν} {q : String} :
    Utils.getGreatestDictKeyVal d q = .ok none ↔ ∀ k ∈ Dict.keys d, q < k := by
  unfold Utils.getGreatestDictKeyVal
  split
  · next e h =>
    obtain ⟨_, h⟩ := getGreatestVal_error.1 h
    simpa using h
  · next k h =>
    obtain ⟨h1, h2, _⟩ := getGreatestVal_ok.1 h
    rw [Py.bind_eq_ok]
    constructor
    · rintro ⟨w, _, h'⟩
      simp at h'
    · intro h'
      exact absurd (h' k h1) (not_lt.2 h2)

/-! ## Versions as numbers -/

theorem isDigit_iff {c : Char} : c.isDigit = true ↔ 48 ≤ c.toNat ∧ c.toNat ≤ 57 := by
  simp only [Char.isDigit, Bool.and_eq_true, decide_eq_true_eq, Char.toNat]
  constructor
  · rintro ⟨h1, h2⟩
    exact ⟨UInt32.le_iff_toNat_le.1 h1, UInt32.le_iff_toNat_le.1 h2⟩
  · rintro ⟨h1, h2⟩
    exact ⟨UInt32.le_iff_toNat_le.2 h1, UInt32.le_iff_toNat_le.2 h2⟩

theorem char_lt_iff {a b : Char} : a < b ↔ a.toNat < b.toNat := by
  rw [Char.lt_def]
  exact UInt32.lt_iff_toNat_lt

theorem fraction_bounds {ds : List Char} (h : ∀ c ∈ ds, c.isDigit = true) :
    0 ≤ Spec.fraction ds ∧ Spec.fraction ds < 1 := by
  induction ds with
  | nil => simp [Spec.fraction]
  | cons c ds ih =>
    obtain ⟨h1, h2⟩ := ih (fun c hc => h c (List.mem_cons_of_mem _ hc))
    obtain ⟨h3, h4⟩ := isDigit_iff.1 (h c List.mem_cons_self)
    have h3 : (48 : ℚ) ≤ c.toNat := by exact_mod_cast h3
    have h4 : (c.toNat : ℚ) ≤ 57 := by exact_mod_cast h4
    simp only [Spec.fraction]
    constructor <;> linarith

theorem cons_le {a b : Char} {l l' : List Char} (h : a :: l ≤ b :: l') : a < b ∨ a = b ∧ l ≤ l' := by
  have h := not_lt.2 h
  rcases lt_trichotomy a b with h1 | rfl | h1
  · exact .inl h1
  · refine .inr ⟨rfl, not_lt.1 fun hc => h ?_⟩
    exact List.cons_lt_cons_iff.2 (.inr ⟨rfl, hc⟩)
  · exact absurd (List.cons_lt_cons_iff.2 (.inl h1)) h

theorem fraction_mono {ds es : List Char} (hd : ∀ c ∈ ds, c.isDigit = true)
    (he : ∀ c ∈ es, c.isDigit = true) (h : ds ≤ es) : Spec.fraction ds ≤ Spec.fraction es := by
  induction ds generalizing es with
  | nil => exact (fraction_bounds he).1
  | cons c ds ih =>
    cases es with
    | nil => exact absurd h (by simp)
    | cons d es =>
      have hd' : ∀ c ∈ ds, c.isDigit = true := fun c hc => hd c (List.mem_cons_of_mem _ hc)
      have he' : ∀ c ∈ es, c.isDigit = true := fun c hc => he c (List.mem_cons_of_mem _ hc)
      simp only [Spec.fraction]
      rcases cons_le h with h' | ⟨rfl, h'⟩
      · have h : c.toNat + 1 ≤ d.toNat := char_lt_iff.1 h'
        have h : (c.toNat : ℚ) + 1 ≤ d.toNat := by exact_mod_cast h
        have := (fraction_bounds hd').2
        have := (fraction_bounds he').1
        linarith
      · have := ih hd' he' h'
        linarith

theorem versionNumber_mono {s t : String} (hs : Spec.OneDigitVersion s) (ht : Spec.OneDigitVersion t)
    (h : s ≤ t) : Spec.versionNumber s ≤ Spec.versionNumber t := by
  obtain ⟨a, ds, h1, h2, h3⟩ := hs
  obtain ⟨b, es, g1, g2, g3⟩ := ht
  rw [String.le_iff_toList_le, h1, g1] at h
  unfold Spec.versionNumber
  rw [h1, g1]
  simp only []
  rcases cons_le h with h' | ⟨rfl, h'⟩
  · have h : a.toNat + 1 ≤ b.toNat := char_lt_iff.1 h'
    have h : (a.toNat : ℚ) + 1 ≤ b.toNat := by exact_mod_cast h
    have := (fraction_bounds h3).2
    have := (fraction_bounds g3).1
    linarith
  · rcases cons_le h' with h' | ⟨_, h'⟩
    · exact absurd h' (lt_irrefl _)
    · have := fraction_mono h3 g3 h'
      linarith

end Ama
