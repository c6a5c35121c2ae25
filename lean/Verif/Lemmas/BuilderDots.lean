import Verif.Lemmas.BuilderTimeline
import Verif.Spec.Builder
import Mathlib.Data.Rat.Floor
import Mathlib.Algebra.Order.Floor.Ring
import Mathlib.Tactic.Linarith
import Mathlib.Tactic.Positivity

/-!
# Lemmas on damage over time
-/

namespace Ama

open Spec

/-! ## Ranges -/

theorem mem_intRange {start stop : ℤ} {step : ℕ} (hs : 0 < step) {t : ℤ} :
    t ∈ intRange start stop step ↔ ∃ j : ℕ, t = start + step * j ∧ t < stop := by
  have hs' : (0 : ℤ) < step := by exact_mod_cast hs
  unfold intRange
  rw [if_neg (by omega)]
  simp only [List.mem_map, List.mem_range]
  have key : ∀ j : ℕ, j < ((stop - start + (step : ℤ) - 1) / (step : ℤ)).toNat ↔
      start + step * j < stop := by
    intro j
    rw [Int.lt_toNat, ← Int.add_one_le_iff, Int.le_ediv_iff_mul_le hs']
    constructor <;> intro h <;> nlinarith
  constructor
  · rintro ⟨j, hj, rfl⟩
    exact ⟨j, rfl, (key j).1 hj⟩
  · rintro ⟨j, rfl, hj⟩
    exact ⟨j, (key j).2 hj, rfl⟩

theorem intRange_sorted (start stop : ℤ) (step : ℕ) : (intRange start stop step).Pairwise (· < ·) := by
  unfold intRange
  split_ifs with h
  · exact .nil
  · rw [List.pairwise_map]
    refine List.Pairwise.imp ?_ List.pairwise_lt_range
    intro a b hab
    have h1 : (0 : ℤ) < step := by omega
    have h2 : (a : ℤ) < b := by exact_mod_cast hab
    nlinarith

theorem pyRange_ok {start stop : ℚ} {step : ℕ} {l : List ℤ} (h : pyRange start stop step = .ok l) :
    ∃ a b : ℤ, start = a ∧ stop = b ∧ l = intRange a b step := by
  unfold pyRange at h
  split_ifs at h with hd
  cases h
  exact ⟨start.num, stop.num, (Rat.coe_int_num_of_den_eq_one hd.1).symm,
    (Rat.coe_int_num_of_den_eq_one hd.2).symm, rfl⟩

theorem pyRange_int (a b : ℤ) (step : ℕ) : pyRange a b step = .ok (intRange a b step) := by
  unfold pyRange
  rw [if_pos ⟨Rat.den_intCast _, Rat.den_intCast _⟩]
  simp

/-! ## Recorded applications -/

/-- The application is recorded. -/
def HasApp (d : Dots) (x : String × FollowUp × DotApp) : Prop :=
  ∃ td ∈ d, td.1 = x.1 ∧ ∃ fa ∈ td.2, fa.1 = x.2.1 ∧ x.2.2 ∈ fa.2

theorem Dict.mem_set {κ ν : Type} [DecidableEq κ] {d : Dict κ ν} {k : κ} {v : ν} {x : κ × ν}
    (h : x ∈ Dict.set d k v) : x = (k, v) ∨ x ∈ d := by
  induction d with
  | nil => simpa [Dict.set] using h
  | cons p d ih =>
    obtain ⟨k', v'⟩ := p
    unfold Dict.set at h
    split_ifs at h with hk
    · rcases List.mem_cons.1 h with h | h
      · rw [hk] at h
        exact .inl h
      · exact .inr (List.mem_cons_of_mem _ h)
    · rcases List.mem_cons.1 h with h | h
      · exact .inr (by rw [h]; simp)
      · rcases ih h with h | h
        · exact .inl h
        · exact .inr (List.mem_cons_of_mem _ h)

theorem hasApp_addDotApp {d : Dots} {f : FollowUp} {a : DotApp} {target : String}
    {x : String × FollowUp × DotApp} (h : HasApp (RotationBuilder.addDotApp d f a target) x) :
    HasApp d x ∨ x = (target, f, a) := by
  obtain ⟨td, htd, h1, fa, hfa, h2, h3⟩ := h
  unfold RotationBuilder.addDotApp at htd
  rcases Dict.mem_set htd with rfl | htd
  · rcases Dict.mem_set hfa with rfl | hfa
    · simp only at h1 h2 h3
      rcases List.mem_append.1 h3 with h3 | h3
      · left
        cases hd : Dict.get? d target with
        | none =>
          rw [hd] at h3
          simp at h3
        | some per =>
          rw [hd] at h3
          simp only [Option.getD_some] at h3
          cases hp : Dict.get? per f with
          | none =>
            rw [hp] at h3
            simp at h3
          | some apps =>
            rw [hp] at h3
            exact ⟨_, Dict.mem_of_get? hd, h1, _, Dict.mem_of_get? hp, h2, h3⟩
      · right
        obtain ⟨x1, x2, x3⟩ := x
        simp only [List.mem_singleton] at h3
        simp only at h1 h2
        rw [h1, h2, h3]
    · left
      cases hd : Dict.get? d target with
      | none =>
        rw [hd] at hfa
        simp at hfa
      | some per =>
        rw [hd] at hfa
        exact ⟨_, Dict.mem_of_get? hd, h1, fa, hfa, h2, h3⟩
  · exact .inl ⟨td, htd, h1, fa, hfa, h2, h3⟩

theorem hasApp_addDots {l : List (String × FollowUp × DotApp)} {d : Dots}
    {x : String × FollowUp × DotApp} (h : HasApp (addDots d l) x) : HasApp d x ∨ x ∈ l := by
  induction l generalizing d with
  | nil => exact .inl h
  | cons y l ih =>
    rcases ih (d := RotationBuilder.addDotApp d y.2.1 y.2.2 y.1) h with h | h
    · rcases hasApp_addDotApp h with h | h
      · exact .inl h
      · exact .inr (by rw [h]; simp)
    · exact .inr (List.mem_cons_of_mem _ h)

namespace RotationBuilder

/-! ## Ticks -/

theorem mem_consolidate {rs : List DotRange} {r : DotRange} (h : r ∈ consolidate rs) :
    ∃ r0 ∈ rs, r.start = r0.start ∧ r.snapshot = r0.snapshot ∧ r.prioMod = r0.prioMod ∧
      r.stop ≤ r0.stop := by
  induction rs with
  | nil => simp [consolidate] at h
  | cons a rs ih =>
    cases rs with
    | nil =>
      simp only [consolidate, List.mem_singleton] at h
      subst h
      exact ⟨r, by simp, rfl, rfl, rfl, le_rfl⟩
    | cons b rs =>
      rw [consolidate] at h
      rcases List.mem_cons.1 h with rfl | h
      · exact ⟨a, by simp, rfl, rfl, rfl, min_le_left _ _⟩
      · obtain ⟨r0, h1, h2⟩ := ih h
        exact ⟨r0, List.mem_cons_of_mem _ h1, h2⟩

theorem mem_baseDotTimings {duration : ℤ} {apps : List DotApp} {r : DotRange}
    (h : r ∈ baseDotTimings duration apps) :
    ∃ a ∈ apps, r = { start := a.application, stop := a.application + duration,
                      snapshot := a.snapshot, prioMod := a.prioMod } := by
  unfold baseDotTimings at h
  rw [mem_sortBy, List.mem_map] at h
  obtain ⟨a, ha, rfl⟩ := h
  exact ⟨a, ha, rfl⟩

theorem mem_rangeAdds {snap : Option ℚ} {f : FollowUp} {target : String} {last : Option ℚ} {n : ℕ}
    {rs : List DotRange} {as : List NewEvent} (h : rangeAdds snap f target last n rs = .ok as)
    {a : NewEvent} (ha : a ∈ as) :
    ∃ r ∈ rs, ∃ t k, a = dotEvent f target r k t ∧ tickSkipped last t = false ∧
      (∃ start stop : ℤ, dotStart snap r.start = start ∧ r.stop = stop ∧
        ∃ j : ℕ, t = start + 3000 * j ∧ t < stop) := by
  induction rs generalizing n as with
  | nil =>
    cases h
    simp at ha
  | cons r rs ih =>
    unfold rangeAdds at h
    obtain ⟨ticks, h1, h⟩ := Py.bind_eq_ok.1 h
    obtain ⟨rest, h2, h⟩ := Py.bind_eq_ok.1 h
    cases h
    rcases List.mem_append.1 ha with ha | ha
    · obtain ⟨⟨t, k⟩, hx, rfl⟩ := List.mem_map.1 ha
      have hmem : t ∈ ticks.filter (fun t => !tickSkipped last t) := by
        have := List.mem_zipIdx hx
        rw [this.2.2]
        exact List.getElem_mem _
      rw [List.mem_filter] at hmem
      obtain ⟨sa, so, e1, e2, rfl⟩ := pyRange_ok h1
      obtain ⟨j, hj, hlt⟩ := (mem_intRange (by norm_num [GameConsts.DOT_TICK_INTERVAL])).1 hmem.1
      exact ⟨r, by simp, t, k, rfl, by simpa using hmem.2, sa, so, e1, e2, j, hj, hlt⟩
    · obtain ⟨r0, hr0, h⟩ := ih h2 ha
      exact ⟨r0, List.mem_cons_of_mem _ hr0, h⟩

/-- Every tick belongs to a recorded application. -/
theorem mem_allDotAdds {snap last : Option ℚ} {d : Dots} {as : List NewEvent}
    (h : allDotAdds snap last d = .ok as) {a : NewEvent} (ha : a ∈ as) :
    ∃ x, HasApp d x ∧ ∃ duration : ℤ, x.2.1.dotDuration = some duration ∧
      a.primary = x.2.2.snapshot ∧ a.skill = x.2.1.skill.toSkill ∧ a.targets = [x.1] ∧
      ∃ t : ℤ, a.secondary = some (t : ℚ) ∧ tickSkipped last t = false ∧
      (∃ (start : ℤ) (j : ℕ), dotStart snap x.2.2.application = start ∧ t = start + 3000 * j) ∧
      (t : ℚ) < x.2.2.application + duration := by
  unfold allDotAdds at h
  obtain ⟨td, htd, l1, h1, ha⟩ := (mem_flatM h).1 ha
  obtain ⟨fa, hfa, l2, h2, ha⟩ := (mem_flatM h1).1 ha
  unfold dotAdds at h2
  cases hdur : fa.1.dotDuration with
  | none =>
    rw [hdur] at h2
    cases h2
  | some duration =>
    rw [hdur] at h2
    obtain ⟨r, hr, t, k, rfl, hs, sa, so, e1, e2, j, hj, hlt⟩ := mem_rangeAdds h2 ha
    obtain ⟨r0, hr0, q1, q2, q3, q4⟩ := mem_consolidate hr
    obtain ⟨app, happ, rfl⟩ := mem_baseDotTimings hr0
    refine ⟨(td.1, fa.1, app), ⟨td, htd, rfl, fa, hfa, rfl, happ⟩, duration, hdur, q2, rfl, rfl, t, rfl,
      hs, ⟨sa, j, ?_, hj⟩, ?_⟩
    · rw [← e1, q1]
    · have : (t : ℚ) < so := by exact_mod_cast hlt
      rw [← e2] at this
      exact lt_of_lt_of_le this q4

/-- Without snapping, ticks do not come before the application; with it, they come less than 1 ms
before it, and not at all if the application is at a whole millisecond. -/
theorem dotStart_le {snap : Option ℚ} {start : ℚ} {s : ℤ} (h : dotStart snap start = s) :
    (snap = none → start = s) ∧ start < s + 1 ∧ (∀ z : ℤ, start = z → start ≤ s) := by
  unfold dotStart at h
  cases snap with
  | none =>
    simp only at h
    exact ⟨fun _ => h, by rw [h]; linarith, fun _ _ => h.le⟩
  | some x =>
    refine ⟨fun h => (by cases h), ?_⟩
    simp only at h
    split_ifs at h with hsh
    · exact ⟨by rw [h]; linarith, fun _ _ => h.le⟩
    · have hm : pyMod (start - 1000 * x) GameConsts.DOT_TICK_INTERVAL < 3000 := by
        have h1 := Int.lt_floor_add_one ((start - 1000 * x) / 3000)
        rw [div_lt_iff₀ (by norm_num)] at h1
        simp only [pyMod, GameConsts.DOT_TICK_INTERVAL, Nat.cast_ofNat]
        linarith
      have hs : s = pyInt (start - pyMod (start - 1000 * x) GameConsts.DOT_TICK_INTERVAL +
          GameConsts.DOT_TICK_INTERVAL) := by
        exact_mod_cast h.symm
      have hlt : start < start - pyMod (start - 1000 * x) GameConsts.DOT_TICK_INTERVAL +
          GameConsts.DOT_TICK_INTERVAL := by
        have : ((GameConsts.DOT_TICK_INTERVAL : ℕ) : ℚ) = 3000 := by
          norm_num [GameConsts.DOT_TICK_INTERVAL]
        rw [this] at hm ⊢
        linarith
      generalize start - pyMod (start - 1000 * x) GameConsts.DOT_TICK_INTERVAL +
          GameConsts.DOT_TICK_INTERVAL = y at hs hlt
      have hy : (⌊y⌋ : ℚ) ≤ s := by
        rw [hs]
        unfold pyInt
        split_ifs
        · exact le_rfl
        · exact_mod_cast Int.floor_le_ceil y
      refine ⟨?_, ?_⟩
      · have := Int.lt_floor_add_one y
        linarith
      · rintro z rfl
        have : z ≤ ⌊y⌋ := Int.le_floor.2 hlt.le
        have : (z : ℚ) ≤ ⌊y⌋ := by exact_mod_cast this
        linarith

end RotationBuilder

end Ama
