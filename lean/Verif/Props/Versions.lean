import Verif.Lemmas.Versions

/-!
# C53: patch lookups
-/

namespace Ama

open Spec

variable {ν : Type} {s s' : SpecificSkills ν} {name param q : String} {table : Dict String ν}

/-- Sample data: two parameters of one skill at level 100. -/
def Ex.patches : SpecificSkills ℤ :=
  { skills := [("Hit", [(100, [("potency", [("6.55", 200), ("7.0", 250), ("7.05", 260)]),
      ("potency_no_combo", [("7.0", 120)])])]),
      ("Kick", [(90, [("potency", [("6.55", 100)])])])]
    version := some "7.01"
    level := 100 }

/-- C53: the value found is the one listed for the newest version not above the version in force
(versions being compared as text), and nothing is found exactly when all listed versions are newer. -/
theorem C53_newest (hv : s.version = some q) (hl : Listed s name param table) :
    (∀ v, s.getSkillData name param = .ok (some v) ↔ NewestIn (· ≤ ·) table q v) ∧
    (s.getSkillData name param = .ok none ↔ ∀ k ∈ Dict.keys table, q < k) := by
  obtain ⟨levels, params, h1, h2, h3⟩ := hl
  have : s.getSkillData name param = Utils.getGreatestDictKeyVal table q := by
    unfold SpecificSkills.getSkillData
    simp only [h1, h2, h3, hv]
  rw [this]
  exact ⟨fun v => getGreatestDictKeyVal_some, getGreatestDictKeyVal_none⟩

example : Listed Ex.patches "Hit" "potency" [("6.55", 200), ("7.0", 250), ("7.05", 260)] :=
  ⟨_, _, rfl, rfl, rfl⟩

example : Ex.patches.getSkillData "Hit" "potency" = .ok (some 250) := by decide +kernel

example : (Ex.patches.setVersion "6.0").getSkillData "Hit" "potency" = .ok none := by decide +kernel

/-- C53: a skill, level or parameter that is not listed fails an assertion; listed ones never do while
a version is set. -/
theorem C53_listed (hv : s.version = some q) :
    ((∀ table, ¬Listed s name param table) → s.getSkillData name param = .error .assertionError) ∧
    ((∃ table, Listed s name param table) → ∃ r, s.getSkillData name param = .ok r) := by
  constructor
  · intro h
    unfold SpecificSkills.getSkillData
    split
    · rfl
    next levels h1 =>
    split
    · rfl
    next params h2 =>
    split
    · rfl
    next table h3 => exact absurd ⟨levels, params, h1, h2, h3⟩ (h table)
  · rintro ⟨table, hl⟩
    obtain ⟨h1, h2⟩ := C53_newest hv hl
    cases hr : s.getSkillData name param with
    | ok r => exact ⟨r, rfl⟩
    | error e =>
      exfalso
      obtain ⟨levels, params, g1, g2, g3⟩ := hl
      unfold SpecificSkills.getSkillData at hr
      simp only [g1, g2, g3, hv] at hr
      unfold Utils.getGreatestDictKeyVal at hr
      split at hr
      · cases hr
      · next k hk =>
        rcases Py.bind_eq_error.1 hr with h | ⟨_, _, h⟩
        · obtain ⟨hm, _⟩ := getGreatestVal_ok.1 hk
          exact (Dict.get_error.1 h).2 hm
        · cases h

example : Ex.patches.getSkillData "Kick" "potency" = .error .assertionError := by decide +kernel

/-- C53 (`get_potency` and its two variants): the newest value, or an exception when all listed
versions are newer. -/
theorem C53_potency (hv : s.version = some q) {v : ν} :
    (Listed s name "potency" table → (s.getPotency name = .ok v ↔ NewestIn (· ≤ ·) table q v)) ∧
    (Listed s name "potency_no_combo" table →
      (s.getPotencyNoCombo name = .ok v ↔ NewestIn (· ≤ ·) table q v)) ∧
    (Listed s name "potency_no_pos" table →
      (s.getPotencyNoPositional name = .ok v ↔ NewestIn (· ≤ ·) table q v)) := by
  refine ⟨fun hl => ?_, fun hl => ?_, fun hl => ?_⟩
  all_goals
    rw [← (C53_newest hv hl).1 v]
    first
      | unfold SpecificSkills.getPotency
      | unfold SpecificSkills.getPotencyNoCombo
      | unfold SpecificSkills.getPotencyNoPositional
    rw [Py.bind_eq_ok]
    constructor
    · rintro ⟨r, h1, h2⟩
      cases r with
      | none => cases h2
      | some x =>
        simp only [Except.ok.injEq] at h2
        rw [h1, h2]
    · intro h
      exact ⟨some v, h, rfl⟩

example : Ex.patches.getPotencyNoCombo "Hit" = .ok 120 ∧
    Ex.patches.getPotencyNoPositional "Hit" = .error .assertionError := by decide +kernel

/-- C53: the data found is what was added under the name; other names keep what they had, and a name
already present is refused. -/
theorem C53_added {n : String} {vals : Dict ℤ (Dict String (Dict String ν))}
    (h : s.addSkillData n vals = .ok s') :
    (∀ table, Listed s' n param table ↔
      ∃ params, Dict.get? vals s.level = some params ∧ Dict.get? params param = some table) ∧
    (∀ m table, m ≠ n → (Listed s' m param table ↔ Listed s m param table)) ∧
    s'.version = s.version ∧ s'.level = s.level ∧
    s'.addSkillData n vals = .error .assertionError := by
  unfold SpecificSkills.addSkillData at h
  split at h
  · cases h
  · injection h with h
    subst h
    refine ⟨fun table => ?_, fun m table hm => ?_, rfl, rfl, ?_⟩
    · unfold Listed
      simp only [Dict.get?_set_self, Option.some.injEq]
      constructor
      · rintro ⟨levels, params, rfl, h2, h3⟩
        exact ⟨params, h2, h3⟩
      · rintro ⟨params, h2, h3⟩
        exact ⟨vals, params, rfl, h2, h3⟩
    · unfold Listed
      simp only [Dict.get?_set_ne _ _ (Ne.symm hm)]
    · unfold SpecificSkills.addSkillData
      simp [Dict.mem]

example : ∃ s', Ex.patches.addSkillData "Slap" [(100, [("potency", [("7.0", 5)])])] = .ok s' :=
  ⟨_, rfl⟩

/-- C53: moving to a later version never falls back to data of an earlier one. -/
theorem C53_monotone {q' : String} {v v' : ν} (hq : q ≤ q') (h : NewestIn (· ≤ ·) table q v)
    (h' : NewestIn (· ≤ ·) table q' v') : ∃ k k', Dict.get? table k = some v ∧
      Dict.get? table k' = some v' ∧ k ≤ k' := by
  obtain ⟨k, h1, h2, _⟩ := h
  obtain ⟨k', g1, _, g3⟩ := h'
  exact ⟨k, k', h1, g1, g3 k (Dict.get?_isSome.1 (by simp [h1])) (le_trans h2 hq)⟩

/-- C53 read with versions as numbers: true while versions have one digit before the point and equal
numbers are written alike.  Missing: versions such as `10.0` (`C53_numeric_refuted`). -/
theorem C53_numeric_partial (hv : s.version = some q) (hl : Listed s name param table)
    (hq : OneDigitVersion q) (hk : ∀ k ∈ Dict.keys table, OneDigitVersion k)
    (hs : ∀ k ∈ Dict.keys table, versionNumber k = versionNumber q → k = q) :
    (∀ v, s.getSkillData name param = .ok (some v) →
      NewestIn (fun a b => versionNumber a ≤ versionNumber b) table q v) ∧
    (s.getSkillData name param = .ok none → ∀ k ∈ Dict.keys table, versionNumber q < versionNumber k) := by
  obtain ⟨h1, h2⟩ := C53_newest (param := param) hv hl
  have key : ∀ k ∈ Dict.keys table, versionNumber k ≤ versionNumber q → k ≤ q := by
    intro k hm hle
    by_contra hc
    have := versionNumber_mono hq (hk k hm) (le_of_lt (not_le.1 hc))
    have := hs k hm (le_antisymm hle this)
    exact hc (le_of_eq this)
  constructor
  · intro v hr
    obtain ⟨k, g1, g2, g3⟩ := (h1 v).1 hr
    have hm : k ∈ Dict.keys table := Dict.get?_isSome.1 (by simp [g1])
    exact ⟨k, g1, versionNumber_mono (hk k hm) hq g2, fun k' hm' hle =>
      versionNumber_mono (hk k' hm') (hk k hm) (g3 k' hm' (key k' hm' hle))⟩
  · intro hr k hm
    exact not_le.1 fun hle => not_le.2 (h2.1 hr k hm) (key k hm hle)

example : OneDigitVersion "7.01" ∧ versionNumber "7.01" = 701 / 100 ∧
    ∀ k ∈ ["6.55", "7.0", "7.05"], OneDigitVersion k ∧
      (versionNumber k = versionNumber "7.01" → k = "7.01") := by
  refine ⟨⟨'7', ['0', '1'], rfl, rfl, by decide⟩, by decide +kernel, ?_⟩
  intro k hk
  simp only [List.mem_cons, List.not_mem_nil, or_false] at hk
  rcases hk with rfl | rfl | rfl
  · exact ⟨⟨'6', ['5', '5'], rfl, rfl, by decide⟩, fun h => absurd h (by decide +kernel)⟩
  · exact ⟨⟨'7', ['0'], rfl, rfl, by decide⟩, fun h => absurd h (by decide +kernel)⟩
  · exact ⟨⟨'7', ['0', '5'], rfl, rfl, by decide⟩, fun h => absurd h (by decide +kernel)⟩

/-- Read with versions as numbers the property is false: as text `10.0` comes before `7.0`, so at
version 10.0 the data of 7.0 is not found. -/
theorem C53_numeric_refuted : ∃ s : SpecificSkills ℤ, ∃ table,
    s.version = some "10.0" ∧ Listed s "Hit" "potency" table ∧
    NewestIn (fun a b => versionNumber a ≤ versionNumber b) table "10.0" 250 ∧
    s.getPotency "Hit" = .error .valueError := by
  refine ⟨{ skills := [("Hit", [(100, [("potency", [("7.0", 250)])])])], version := some "10.0",
            level := 100 }, [("7.0", 250)], rfl, ⟨_, _, rfl, rfl, rfl⟩, ?_, by decide +kernel⟩
  exact ⟨"7.0", rfl, by decide +kernel, by simp [Dict.keys]⟩

end Ama
