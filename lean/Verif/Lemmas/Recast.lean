import Verif.Lemmas.StatFns
import Verif.Model.RotationBuilder

/-!
# Lemmas about cast and recast times
-/

namespace Ama

open Spec StatFns GameConsts RotationBuilder

/-- The speed step of cast and recast times. -/
def speedTime (stats : Stats) (affected : Bool) (t : ℚ) : Py ℚ :=
  if affected = true then do
    let x ← getTimeUsingSpeedStat t stats.speedStat stats.version stats.level
    pure (x : ℚ)
  else pure t

/-- The haste step. -/
def hasted (affected : Bool) (c x : ℚ) : ℚ :=
  if affected = true then (Utils.truncateToDigit x 2 : ℚ) else c

/-- The lower bound of recast times. -/
def capRecast (base x : ℚ) : ℚ :=
  if base = GCD_RECAST_TIME then max x MIN_GCD_RECAST_TIME else x

/-- The flat reduction of cast times. -/
def cutCast (r : WithTop ℚ) (x : ℚ) : ℚ :=
  match r with
  | ⊤ => 0
  | (y : ℚ) => max 0 (x - y)

theorem recastTime_eq (stats : Stats) (ts : TimingSpec) (buffs debuffs : StatusEffects) :
    recastTime stats ts buffs debuffs =
      (speedTime stats ts.affectedBySpeedStat ts.gcdBaseRecastTime >>= fun c =>
        pure (capRecast ts.gcdBaseRecastTime
          (hasted ts.affectedByHasteBuffs c (c * buffs.hasteTimeMult * debuffs.hasteTimeMult *
            (1 - stats.processed.traitHasteTimeReduction)) - buffs.flatGcdRecastTimeReduction))) := by
  unfold recastTime speedTime capRecast hasted
  cases ts.affectedBySpeedStat with
  | false => rfl
  | true =>
    simp only [if_true]
    cases getTimeUsingSpeedStat ts.gcdBaseRecastTime stats.speedStat stats.version stats.level <;> rfl

theorem getCastTime_eq (stats : Stats) (ts : TimingSpec) (m : SkillModifier) (buffs : StatusEffects) :
    getCastTime stats (some ts) m buffs =
      if m.ignoreCastTimes = true then .ok 0
      else (speedTime stats ts.affectedBySpeedStat ts.baseCastTime >>= fun c =>
        pure (cutCast buffs.flatCastTimeReduction (hasted ts.affectedByHasteBuffs c
          (c * buffs.hasteTimeMult * (1 - stats.processed.traitHasteTimeReduction))))) := by
  unfold getCastTime speedTime cutCast hasted
  by_cases h1 : m.ignoreCastTimes = true
  · simp only [h1, if_true]
  · simp only [h1]
    cases h2 : ts.affectedBySpeedStat with
    | false =>
      simp only [Py.ok_bind, Py.pure_eq, Bool.false_eq_true, if_false]
      cases buffs.flatCastTimeReduction <;> rfl
    | true =>
      simp only [if_true]
      cases getTimeUsingSpeedStat ts.baseCastTime stats.speedStat stats.version stats.level with
      | error e => rfl
      | ok x =>
        simp only [Py.ok_bind, Py.pure_eq, Bool.false_eq_true, if_false]
        cases buffs.flatCastTimeReduction <;> rfl

theorem speedTime_nonneg {stats : Stats} {b : Bool} {t c : ℚ} (h : speedTime stats b t = .ok c)
    (ht : 0 ≤ t) (hs : stats.speedStat ≤ 15000) : 0 ≤ c := by
  unfold speedTime at h
  split_ifs at h with hb
  · obtain ⟨z, h1, h2⟩ := Py.bind_eq_ok.1 h
    cases h2
    obtain ⟨r, hr⟩ := exists_row (supported_time h1)
    rw [time_eq hr] at h1
    cases h1
    have h3 := speed_factor_nonneg hr.mem hs
    exact_mod_cast centisToMs_nonneg (centis_nonneg (mul_nonneg ht h3))
  · cases h
    exact ht

theorem hasted_mono {b : Bool} {c x y : ℚ} (h : x ≤ y) : hasted b c x ≤ hasted b c y := by
  unfold hasted
  split_ifs
  · exact_mod_cast truncate_mono h
  · exact le_refl _

theorem hasted_le {b : Bool} {c x : ℚ} (h : x ≤ c) : hasted b c x ≤ hasted false c x := by
  cases b with
  | false => exact le_refl _
  | true => exact (truncate_le x).trans h

theorem capRecast_mono {base x y : ℚ} (h : x ≤ y) : capRecast base x ≤ capRecast base y := by
  unfold capRecast
  split_ifs
  · exact max_le_max h (le_refl _)
  · exact h

theorem cutCast_mono {r : WithTop ℚ} {x y : ℚ} (h : x ≤ y) : cutCast r x ≤ cutCast r y := by
  unfold cutCast
  split
  · exact le_refl _
  · exact max_le_max (le_refl _) (sub_le_sub_right h _)

end Ama
