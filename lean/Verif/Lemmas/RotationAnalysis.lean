import Verif.Spec.RotationAnalysis
import Verif.Lemmas.Float
import Verif.Lemmas.Simulation

/-!
# Lemmas about damage over time
-/

namespace Ama.RotationAnalysis

open Spec
open DamageSimulator (mapM_length mapM_get)

theorem before_fold (T : ℚ) : ∀ (per : List PerInstanceDamage) (acc r : ℚ),
    per.foldlM (addIfBefore T) acc = .ok r →
    (∀ p ∈ per, p.snapshotTime ≠ none) ∧
      r = (snapshotted per fun t => decide (t ≤ T)).foldl (fun s p => float64 (s + p.expectedDamage)) acc
  | [], acc, r, h => by
    cases h
    simp [snapshotted]
  | p :: per, acc, r, h => by
    rw [Py.foldlM_cons] at h
    obtain ⟨a, h1, h2⟩ := Py.bind_eq_ok.1 h
    obtain ⟨h3, h4⟩ := before_fold T per a r h2
    unfold addIfBefore at h1
    cases hs : p.snapshotTime with
    | none => rw [hs] at h1; cases h1
    | some t =>
      rw [hs] at h1
      simp only [Except.ok.injEq] at h1
      refine ⟨?_, ?_⟩
      · intro q hq
        rcases List.mem_cons.1 hq with rfl | hq
        · rw [hs]; simp
        · exact h3 q hq
      · rw [h4]
        unfold snapshotted
        rw [List.filter_cons, hs]
        by_cases hT : t ≤ T
        · rw [if_pos hT] at h1
          simp [hT, ← h1]
        · rw [if_neg hT] at h1
          simp [hT, ← h1]

theorem before_ok (T : ℚ) : ∀ (per : List PerInstanceDamage) (acc : ℚ),
    (∀ p ∈ per, p.snapshotTime ≠ none) → ∃ r, per.foldlM (addIfBefore T) acc = .ok r
  | [], acc, _ => ⟨acc, rfl⟩
  | p :: per, acc, h => by
    rw [Py.foldlM_cons]
    cases hs : p.snapshotTime with
    | none => exact absurd hs (h p (by simp))
    | some t =>
      have : addIfBefore T acc p = .ok (if t ≤ T then float64 (acc + p.expectedDamage) else acc) := by
        unfold addIfBefore
        rw [hs]
      rw [this, Py.ok_bind]
      exact before_ok T per _ fun q hq => h q (by simp [hq])

/-- What the sum is. -/
theorem before_spec {per : List PerInstanceDamage} {t r : ℚ}
    (h : getAllDamageSnapshotsBeforeTimestamp per t = .ok r) :
    r = floatTotal (snapshotted per fun s => decide (s ≤ float64 (1000 * t))) :=
  (before_fold _ per 0 r h).2

theorem fold_float (l : List PerInstanceDamage) (a : ℚ) (ha : float64 a = a) :
    float64 (l.foldl (fun s p => float64 (s + p.expectedDamage)) a) =
      l.foldl (fun s p => float64 (s + p.expectedDamage)) a := by
  induction l generalizing a with
  | nil => exact ha
  | cons p l ih =>
    rw [List.foldl_cons]
    exact ih _ (float64_idem _)

/-- Adding more non-negative terms never makes the sum smaller. -/
theorem fold_sublist {l l' : List PerInstanceDamage} (hs : l.Sublist l') :
    ∀ {a a' : ℚ}, a ≤ a' → float64 a' = a' → (∀ p ∈ l', 0 ≤ p.expectedDamage) →
    l.foldl (fun s p => float64 (s + p.expectedDamage)) a ≤
      l'.foldl (fun s p => float64 (s + p.expectedDamage)) a' := by
  induction hs with
  | slnil => intro a a' h _ _; exact h
  | cons p _ ih =>
    intro a a' h hf hp
    rw [List.foldl_cons]
    refine ih ?_ (float64_idem _) fun q hq => hp q (by simp [hq])
    calc a ≤ a' := h
      _ = float64 a' := hf.symm
      _ ≤ float64 (a' + p.expectedDamage) := float64_mono (by have := hp p (by simp); linarith)
  | cons_cons p _ ih =>
    intro a a' h hf hp
    rw [List.foldl_cons, List.foldl_cons]
    exact ih (float64_mono (by linarith)) (float64_idem _) fun q hq => hp q (by simp [hq])

theorem floatTotal_sublist {l l' : List PerInstanceDamage} (hs : l.Sublist l')
    (hp : ∀ p ∈ l', 0 ≤ p.expectedDamage) : floatTotal l ≤ floatTotal l' :=
  fold_sublist hs le_rfl float64_zero hp

theorem snapshotted_sublist (per : List PerInstanceDamage) {P Q : ℚ → Bool} (h : ∀ t, P t = true → Q t = true) :
    (snapshotted per P).Sublist (snapshotted per Q) := by
  unfold snapshotted
  refine List.monotone_filter_right per fun p hp => ?_
  rw [Option.any_eq_true] at hp ⊢
  obtain ⟨t, h1, h2⟩ := hp
  exact ⟨t, h1, h t h2⟩

theorem latest_fold : ∀ (per : List PerInstanceDamage) (acc T : ℚ), per.foldlM later acc = .ok T →
    (T = acc ∨ ∃ p ∈ per, p.snapshotTime = some T) ∧ acc ≤ T ∧
      ∀ p ∈ per, ∃ t, p.snapshotTime = some t ∧ t ≤ T
  | [], acc, T, h => by
    cases h
    simp
  | p :: per, acc, T, h => by
    rw [Py.foldlM_cons] at h
    obtain ⟨a, h1, h2⟩ := Py.bind_eq_ok.1 h
    obtain ⟨h3, h4, h5⟩ := latest_fold per a T h2
    unfold later at h1
    cases hs : p.snapshotTime with
    | none => rw [hs] at h1; cases h1
    | some t =>
      rw [hs] at h1
      simp only [Except.ok.injEq] at h1
      have ha : acc ≤ a ∧ t ≤ a ∧ (a = acc ∨ a = t) := by
        rw [← h1]
        split_ifs with hc
        · exact ⟨hc.le, le_rfl, .inr rfl⟩
        · exact ⟨le_rfl, not_lt.1 hc, .inl rfl⟩
      refine ⟨?_, ha.1.trans h4, ?_⟩
      · rcases h3 with h3 | ⟨q, hq, hq'⟩
        · rcases ha.2.2 with e | e
          · exact .inl (h3.trans e)
          · exact .inr ⟨p, by simp, by rw [hs, h3, e]⟩
        · exact .inr ⟨q, by simp [hq], hq'⟩
      · intro q hq
        rcases List.mem_cons.1 hq with rfl | hq
        · exact ⟨t, hs, ha.2.1.trans h4⟩
        · exact h5 q hq

theorem latest_spec {per : List PerInstanceDamage} {T : ℚ} (h : latest per = .ok T) : IsLatest per T :=
  latest_fold per (-1) T h

theorem mem_pyRange_pos {a b s : ℤ} (hs : 0 < s) {l : List ℤ} (h : pyRange a b s = .ok l) :
    l.Pairwise (· < ·) ∧ ∀ x, x ∈ l ↔ ∃ k : ℕ, x = a + k * s ∧ x < b := by
  unfold pyRange at h
  rw [if_neg hs.ne', if_pos hs] at h
  cases h
  constructor
  · rw [List.pairwise_map]
    refine List.pairwise_lt_range.imp fun {i j} hij => ?_
    have : (i : ℤ) < j := by exact_mod_cast hij
    nlinarith
  · intro x
    rw [List.mem_map]
    constructor
    · rintro ⟨k, hk, rfl⟩
      refine ⟨k, rfl, ?_⟩
      rw [List.mem_range] at hk
      have h1 : (k : ℤ) < (b - a + s - 1) / s := by omega
      have h2 : (k : ℤ) + 1 ≤ (b - a + s - 1) / s := h1
      have h3 := (Int.le_ediv_iff_mul_le hs).1 h2
      nlinarith
    · rintro ⟨k, rfl, hk⟩
      refine ⟨k, ?_, rfl⟩
      rw [List.mem_range]
      have h2 : (k : ℤ) + 1 ≤ (b - a + s - 1) / s := by
        rw [Int.le_ediv_iff_mul_le hs]
        nlinarith
      omega

theorem lt_ceil_iff (x : ℚ) (n : ℤ) : n < pyInt (npCeil x) ↔ (n : ℚ) < x := by
  have : pyInt (npCeil x) = ⌈x⌉ := by
    unfold npCeil
    exact pyInt_int _
  rw [this]
  exact Int.lt_ceil

theorem foldl_max_spec (l : List ℚ) (a : ℚ) :
    (l.foldl max a = a ∨ l.foldl max a ∈ l) ∧ a ≤ l.foldl max a ∧ ∀ y ∈ l, y ≤ l.foldl max a := by
  induction l generalizing a with
  | nil => simp
  | cons b l ih =>
    obtain ⟨h1, h2, h3⟩ := ih (max a b)
    rw [List.foldl_cons]
    refine ⟨?_, (le_max_left a b).trans h2, ?_⟩
    · rcases h1 with h1 | h1
      · rcases max_choice a b with e | e
        · exact .inl (h1.trans e)
        · exact .inr (by rw [h1, e]; simp)
      · exact .inr (by simp [h1])
    · intro y hy
      rcases List.mem_cons.1 hy with rfl | hy
      · exact (le_max_right a y).trans h2
      · exact h3 y hy

theorem npMax_spec {l : List ℚ} {m : ℚ} (h : npMax l = .ok m) : m ∈ l ∧ ∀ y ∈ l, y ≤ m := by
  cases l with
  | nil => cases h
  | cons a l =>
    cases h
    obtain ⟨h1, h2, h3⟩ := foldl_max_spec l a
    constructor
    · rcases h1 with h1 | h1
      · rw [h1]; simp
      · exact List.mem_cons_of_mem _ h1
    · intro y hy
      rcases List.mem_cons.1 hy with rfl | hy
      · exact h2
      · exact h3 y hy

theorem expectedMax_ok {x : List ℚ} {k trials : ℕ} {w : ℕ → ℕ → Fin x.length} {r : ℚ}
    (h : getExpectedMaxInKRuns x k trials w = .ok (some r)) :
    ∃ res, ((List.range trials).mapM fun i => npMax ((List.range k).map fun j => x[w i j])) = .ok res ∧
      0 < trials ∧ r = res.sum / trials := by
  unfold getExpectedMaxInKRuns at h
  obtain ⟨res, h1, h2⟩ := Py.bind_eq_ok.1 h
  refine ⟨res, h1, ?_⟩
  split_ifs at h2 with h0
  · cases h2
  · cases h2
    exact ⟨Nat.pos_of_ne_zero h0, rfl⟩

theorem sum_between {l : List ℚ} {lo hi : ℚ} (h : ∀ m ∈ l, lo ≤ m ∧ m ≤ hi) :
    lo * l.length ≤ l.sum ∧ l.sum ≤ hi * l.length := by
  induction l with
  | nil => simp
  | cons a l ih =>
    obtain ⟨h1, h2⟩ := ih fun m hm => h m (by simp [hm])
    have := h a (by simp)
    simp only [List.length_cons, List.sum_cons]
    push_cast
    constructor <;> linarith

end Ama.RotationAnalysis
