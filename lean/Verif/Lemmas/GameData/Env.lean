import Verif.Model.GameData.Values
import Mathlib.Data.String.Basic

/-!
# Comparing positions is comparing version strings
-/

namespace Ama.GameData

theorem text_lt {p q : Patch} : p.text < q.text ↔ p.rank < q.rank := by
  revert p q
  have : ∀ p ∈ Patch.all, ∀ q ∈ Patch.all, (p.text < q.text ↔ p.rank < q.rank) := by decide +kernel
  intro p q
  exact this p (by cases p <;> decide) q (by cases q <;> decide)

/-- The position as a sum. -/
theorem pos_of (v : String) (l : ℤ) : (Env.of v l).pos =
    2 * ((if "6.55" < v then 1 else 0) + (if "7.0" < v then 1 else 0) + (if "7.01" < v then 1 else 0) +
      (if "7.05" < v then 1 else 0) + (if "7.1" < v then 1 else 0)) +
    (if v = "6.55" ∨ v = "7.0" ∨ v = "7.01" ∨ v = "7.05" ∨ v = "7.1" then 1 else 0) := by
  unfold Env.of
  simp only [Patch.all, List.any_cons, List.any_nil, List.filter_cons, List.filter_nil, Patch.text]
  congr 1
  · split_ifs <;> simp_all
  · simp only [Bool.or_false, Bool.or_eq_true]
    have key : ∀ {a b c d e : Prop} [Decidable a] [Decidable b] [Decidable c] [Decidable d] [Decidable e],
        ((decide a = true ∨ decide b = true ∨ decide c = true ∨ decide d = true ∨ decide e = true) ↔
          (a ∨ b ∨ c ∨ d ∨ e)) := by simp
    exact if_congr key rfl rfl

theorem pos_cases (v : String) (l : ℤ) (p : Patch) :
    (p.text < v ↔ p.rank < (Env.of v l).pos) ∧ (v = p.text ↔ (Env.of v l).pos = p.rank) := by
  have h12 : ("6.55" : String) < "7.0" := by decide +kernel
  have h23 : ("7.0" : String) < "7.01" := by decide +kernel
  have h34 : ("7.01" : String) < "7.05" := by decide +kernel
  have h45 : ("7.05" : String) < "7.1" := by decide +kernel
  have lo : ∀ {a b : String}, v < a → a < b → v < b := fun h1 h2 => lt_trans h1 h2
  have hi : ∀ {a b : String}, b < v → a < b → a < v := fun h1 h2 => lt_trans h2 h1
  have h13 := lt_trans h12 h23
  have h14 := lt_trans h13 h34
  have h15 := lt_trans h14 h45
  have h24 := lt_trans h23 h34
  have h25 := lt_trans h24 h45
  have h35 := lt_trans h34 h45
  rw [pos_of]
  rcases lt_trichotomy v "6.55" with h1 | rfl | h1
  · have h2 := lo h1 h12; have h3 := lo h1 h13; have h4 := lo h1 h14; have h5 := lo h1 h15
    cases p <;> simp [Patch.rank, Patch.text, h1.not_gt, h2.not_gt, h3.not_gt, h4.not_gt, h5.not_gt, h1.ne,
      h2.ne, h3.ne, h4.ne, h5.ne]
  · cases p <;> decide +kernel
  rcases lt_trichotomy v "7.0" with h2 | rfl | h2
  · have h3 := lo h2 h23; have h4 := lo h2 h24; have h5 := lo h2 h25
    cases p <;> simp [Patch.rank, Patch.text, h1, h2.not_gt, h3.not_gt, h4.not_gt, h5.not_gt, h1.ne',
      h2.ne, h3.ne, h4.ne, h5.ne]
  · cases p <;> decide +kernel
  rcases lt_trichotomy v "7.01" with h3 | rfl | h3
  · have h4 := lo h3 h34; have h5 := lo h3 h35
    cases p <;> simp [Patch.rank, Patch.text, h1, h2, h3.not_gt, h4.not_gt, h5.not_gt, h1.ne',
      h2.ne', h3.ne, h4.ne, h5.ne]
  · cases p <;> decide +kernel
  rcases lt_trichotomy v "7.05" with h4 | rfl | h4
  · have h5 := lo h4 h45
    cases p <;> simp [Patch.rank, Patch.text, h1, h2, h3, h4.not_gt, h5.not_gt, h1.ne',
      h2.ne', h3.ne', h4.ne, h5.ne]
  · cases p <;> decide +kernel
  rcases lt_trichotomy v "7.1" with h5 | rfl | h5
  · cases p <;> simp [Patch.rank, Patch.text, h1, h2, h3, h4, h5.not_gt, h1.ne',
      h2.ne', h3.ne', h4.ne', h5.ne]
  · cases p <;> decide +kernel
  · cases p <;> simp [Patch.rank, Patch.text, h1, h2, h3, h4, h5, h1.ne',
      h2.ne', h3.ne', h4.ne', h5.ne']

section

variable (v : String) (l : ℤ) (p : Patch)

theorem Env.of_gt : (Env.of v l).gt p = decide (p.text < v) := by
  simp [Env.gt, (pos_cases v l p).1]

theorem Env.of_eq : (Env.of v l).eq p = decide (v = p.text) := by
  simp [Env.eq, (pos_cases v l p).2]

theorem Env.of_ne : (Env.of v l).ne p = decide (v ≠ p.text) := by
  simp [Env.ne, (pos_cases v l p).2]

theorem Env.of_le : (Env.of v l).le p = decide (v ≤ p.text) := by
  have := (pos_cases v l p).1
  rw [← not_iff_not, not_lt, not_lt] at this
  simp [Env.le, this]

theorem Env.of_lt : (Env.of v l).lt p = decide (v < p.text) := by
  have h1 := (pos_cases v l p).1
  have h2 := (pos_cases v l p).2
  rw [← not_iff_not, not_lt, not_lt] at h1
  simp only [Env.lt, lt_iff_le_and_ne, h1, ne_eq, h2]

theorem Env.of_ge : (Env.of v l).ge p = decide (p.text ≤ v) := by
  have h := Env.of_lt v l p
  simp only [Env.lt, decide_eq_decide] at h
  rw [← not_iff_not, not_lt, not_lt] at h
  simp [Env.ge, h]

theorem Env.of_level : (Env.of v l).level = l := rfl

theorem Env.of_pos_le : (Env.of v l).pos ≤ 10 := by
  rw [pos_of]
  by_cases h : "7.1" < v
  · have : ¬(v = "6.55" ∨ v = "7.0" ∨ v = "7.01" ∨ v = "7.05" ∨ v = "7.1") := by
      rintro (rfl | rfl | rfl | rfl | rfl) <;> revert h <;> decide +kernel
    rw [if_neg this]
    split_ifs <;> omega
  · rw [if_neg h]
    split_ifs <;> omega

end

end Ama.GameData
