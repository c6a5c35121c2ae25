import Verif.Lemmas.Recast
import Verif.Examples.Rotation

/-!
# Properties of the stat functions: speed and monotonicity (C44, C45)
-/

namespace Ama

open Spec StatFns GameConsts RotationBuilder

variable {version : String} {level : ℕ}

/-! ## C44: speed -/

/-- C44, in part: for whole base times and speeds, times computed from the speed stat are a whole number of
hundredths of a second, given by the formula without rounding errors, or one millisecond less.  Missing:
the second case happens, see `C44_steps_refuted`. -/
theorem C44_steps_partial {t s : ℕ} (ht : t ≤ 1000000) (hs : s ≤ 15000) {z : ℤ}
    (h : getTimeUsingSpeedStat t s version level = .ok z) :
    ∃ sub div speed : ℚ, getLevelSub version level = .ok sub ∧ getLevelDiv version level = .ok div ∧
      getSpeedConst version level = .ok speed ∧
      (z = 10 * ⌊(t : ℚ) * (1000 + ⌈speed * (sub - s) / div⌉) / 10000⌋ ∨
        z = 10 * ⌊(t : ℚ) * (1000 + ⌈speed * (sub - s) / div⌉) / 10000⌋ - 1) := by
  obtain ⟨r, hr⟩ := exists_row (supported_time h)
  rw [time_eq hr] at h
  cases h
  refine ⟨r.sub, r.div, r.speed, hr.sub, hr.div, hr.speed, ?_⟩
  rw [centis_int hr.mem ht hs]
  refine centisToMs_int ?_ ?_
  · apply Int.floor_nonneg.2
    have := speed_factor_nonneg hr.mem (s := s) (by exact_mod_cast hs)
    rw [speedFactor_int hr.mem hs] at this
    positivity
  · have := centis_bound hr.mem ht hs
    exact this

/-- 2.40 seconds. -/
example : getTimeUsingSpeedStat (2500 : ℕ) (1023 : ℕ) "6.55" 90 = .ok 2390 ∧
    (239 : ℤ) = ⌊((2500 : ℕ) : ℚ) * (1000 + ⌈(130 : ℚ) * (400 - (1023 : ℕ)) / 1900⌉) / 10000⌋ := by
  decide +kernel

/-- C44 is false: a base time of 2200 ms with a speed of 2010 at level 100 is 2.03 seconds, but the result is
2029 ms, because 1000 * 2.03 is less than 2030 as a floating point number. -/
theorem C44_steps_refuted : getTimeUsingSpeedStat 2200 2010 "7.0" 100 = .ok 2029 ∧ ¬ (10 : ℤ) ∣ 2029 ∧
    (203 : ℤ) = ⌊(2200 : ℚ) * (1000 + ⌈(130 : ℚ) * (420 - 2010) / 2780⌉) / 10000⌋ := by
  decide +kernel

/-- C44.  As a consequence a recast time loses a full hundredth of a second: the result of the speed stat is
rounded down to hundredths once more when haste is applied, even without any haste. -/
theorem C44_recast_refuted : ∃ raw stats ts, mkStats raw = .ok stats ∧ ts.gcdBaseRecastTime = 2200 ∧
    stats.speedStat = 2010 ∧ recastTime stats ts {} {} = .ok 2020 :=
  ⟨{ wd := 146, weaponDelay := some 3, mainStat := 4000, detStat := 1620, dhStat := 1275, critStat := 2377,
     speedStat := 2010, jobClass := "VPR", version := "7.0", level := 100 }, _,
    { baseCastTime := 0, gcdBaseRecastTime := 2200 }, rfl, rfl, rfl, by decide +kernel⟩

/-- C44.  More speed never makes anything slower. -/
theorem C44_speed {t s s' : ℚ} {z z' : ℤ} (h : getTimeUsingSpeedStat t s version level = .ok z)
    (h' : getTimeUsingSpeedStat t s' version level = .ok z') (ht : 0 ≤ t) (hs : s ≤ s') : z' ≤ z := by
  obtain ⟨r, hr⟩ := exists_row (supported_time h)
  rw [time_eq hr] at h h'
  cases h
  cases h'
  exact centisToMs_mono (centis_le (mul_le_mul_of_nonneg_left (speedFactor_anti hr.mem hs) ht))

example : getTimeUsingSpeedStat 2500 400 "6.55" 90 = .ok 2500 ∧
    getTimeUsingSpeedStat 2500 700 "6.55" 90 = .ok 2450 := by decide +kernel

/-- C44, in part: longer base times never become shorter.  Missing: speeds above 15000 (three times of
what the game allows), where the claim is false. -/
theorem C44_base_partial {t t' s : ℚ} {z z' : ℤ}
    (h : getTimeUsingSpeedStat t s version level = .ok z)
    (h' : getTimeUsingSpeedStat t' s version level = .ok z') (ht : t ≤ t') (hs : s ≤ 15000) :
    z ≤ z' := by
  obtain ⟨r, hr⟩ := exists_row (supported_time h)
  rw [time_eq hr] at h h'
  cases h
  cases h'
  exact centisToMs_mono (centis_le (mul_le_mul_of_nonneg_right ht (speed_factor_nonneg hr.mem hs)))

example : getTimeUsingSpeedStat 1500 708 "6.55" 90 = .ok 1460 ∧
    getTimeUsingSpeedStat 2500 708 "6.55" 90 = .ok 2440 := by decide +kernel

/-- With absurdly high speed the longer base time becomes the (more) negative one. -/
theorem C44_base_refuted :
    ∃ t t' s z z', t ≤ t' ∧ getTimeUsingSpeedStat t s "6.55" 90 = .ok z ∧
      getTimeUsingSpeedStat t' s "6.55" 90 = .ok z' ∧ z' < z :=
  ⟨1500, 2500, 20000, -520, -860, by norm_num, by decide +kernel, by decide +kernel, by norm_num⟩

/-- C44.  Recast times: stronger haste never makes the recast longer, and haste that is no slowdown
never makes it longer than without haste.  Base times are non-negative and the speed is at most 15000. -/
theorem C44_haste_recast {raw : RawStats} {stats : Stats} (hs : mkStats raw = .ok stats)
    {ts : TimingSpec} {buffs buffs' debuffs debuffs' : StatusEffects} {x x' : ℚ}
    (h : recastTime stats ts buffs debuffs = .ok x) (h' : recastTime stats ts buffs' debuffs' = .ok x')
    (hb : 0 ≤ buffs'.hasteTimeMult ∧ buffs'.hasteTimeMult ≤ buffs.hasteTimeMult)
    (hd : 0 ≤ debuffs'.hasteTimeMult ∧ debuffs'.hasteTimeMult ≤ debuffs.hasteTimeMult)
    (hf : buffs'.flatGcdRecastTimeReduction = buffs.flatGcdRecastTimeReduction)
    (ht : 0 ≤ ts.gcdBaseRecastTime) (hsp : raw.speedStat ≤ 15000) :
    x' ≤ x ∧ ∀ x0, recastTime stats { ts with affectedByHasteBuffs := false } buffs debuffs = .ok x0 →
      buffs.hasteTimeMult ≤ 1 → debuffs.hasteTimeMult ≤ 1 → x ≤ x0 := by
  have hp := mkStats_spec hs
  obtain ⟨t0, t1⟩ := traitReduction_range hp.haste
  rw [recastTime_eq] at h h'
  obtain ⟨c, hc, h⟩ := Py.bind_eq_ok.1 h
  rw [hc] at h'
  have hc0 : 0 ≤ c := speedTime_nonneg hc ht (by rw [hp.speedStat]; exact hsp)
  simp only [Py.pure_eq, Py.ok_bind, Except.ok.injEq] at h h'
  constructor
  · rw [← h, ← h', hf]
    apply capRecast_mono
    apply sub_le_sub_right
    apply hasted_mono
    have : c * buffs'.hasteTimeMult ≤ c * buffs.hasteTimeMult := by gcongr; exact hb.2
    have : c * buffs'.hasteTimeMult * debuffs'.hasteTimeMult ≤
        c * buffs.hasteTimeMult * debuffs.hasteTimeMult :=
      mul_le_mul this hd.2 hd.1 (mul_nonneg hc0 (hb.1.trans hb.2))
    exact mul_le_mul_of_nonneg_right this (by linarith)
  · intro x0 h0 h1 h2
    rw [recastTime_eq] at h0
    simp only [hc, Py.ok_bind, Py.pure_eq, Except.ok.injEq] at h0
    rw [← h, ← h0]
    apply capRecast_mono
    apply sub_le_sub_right
    refine hasted_le ?_
    have a : c * buffs.hasteTimeMult ≤ c := mul_le_of_le_one_right hc0 h1
    have b : c * buffs.hasteTimeMult * debuffs.hasteTimeMult ≤ c * buffs.hasteTimeMult :=
      mul_le_of_le_one_right (mul_nonneg hc0 (hb.1.trans hb.2)) h2
    have d : c * buffs.hasteTimeMult * debuffs.hasteTimeMult *
        (1 - stats.processed.traitHasteTimeReduction) ≤ c * buffs.hasteTimeMult * debuffs.hasteTimeMult :=
      mul_le_of_le_one_right (mul_nonneg (mul_nonneg hc0 (hb.1.trans hb.2)) (hd.1.trans hd.2))
        (by linarith)
    linarith

/-- C44.  Cast times: the same. -/
theorem C44_haste_cast {raw : RawStats} {stats : Stats} (hs : mkStats raw = .ok stats)
    {ts : TimingSpec} {m : SkillModifier} {buffs buffs' : StatusEffects} {x x' : ℚ}
    (h : getCastTime stats (some ts) m buffs = .ok x)
    (h' : getCastTime stats (some ts) m buffs' = .ok x')
    (hb : 0 ≤ buffs'.hasteTimeMult ∧ buffs'.hasteTimeMult ≤ buffs.hasteTimeMult)
    (hf : buffs'.flatCastTimeReduction = buffs.flatCastTimeReduction)
    (ht : 0 ≤ ts.baseCastTime) (hsp : raw.speedStat ≤ 15000) :
    x' ≤ x ∧ ∀ x0, getCastTime stats (some { ts with affectedByHasteBuffs := false }) m buffs = .ok x0 →
      buffs.hasteTimeMult ≤ 1 → x ≤ x0 := by
  have hp := mkStats_spec hs
  obtain ⟨t0, t1⟩ := traitReduction_range hp.haste
  rw [getCastTime_eq] at h h'
  by_cases hi : m.ignoreCastTimes = true
  · rw [if_pos hi] at h h'
    cases h
    cases h'
    refine ⟨le_refl _, fun x0 h0 _ => ?_⟩
    rw [getCastTime_eq, if_pos hi] at h0
    cases h0
    exact le_refl _
  · rw [if_neg hi] at h h'
    obtain ⟨c, hc, h⟩ := Py.bind_eq_ok.1 h
    rw [hc] at h'
    have hc0 : 0 ≤ c := speedTime_nonneg hc ht (by rw [hp.speedStat]; exact hsp)
    simp only [Py.pure_eq, Py.ok_bind, Except.ok.injEq] at h h'
    constructor
    · rw [← h, ← h', hf]
      apply cutCast_mono
      apply hasted_mono
      have : c * buffs'.hasteTimeMult ≤ c * buffs.hasteTimeMult := by gcongr; exact hb.2
      exact mul_le_mul_of_nonneg_right this (by linarith)
    · intro x0 h0 h1
      rw [getCastTime_eq, if_neg hi] at h0
      simp only [hc, Py.ok_bind, Py.pure_eq, Except.ok.injEq] at h0
      rw [← h, ← h0]
      apply cutCast_mono
      refine hasted_le ?_
      have a : c * buffs.hasteTimeMult ≤ c := mul_le_of_le_one_right hc0 h1
      have d : c * buffs.hasteTimeMult * (1 - stats.processed.traitHasteTimeReduction) ≤
          c * buffs.hasteTimeMult :=
        mul_le_of_le_one_right (mul_nonneg hc0 (hb.1.trans hb.2)) (by linarith)
      linarith

/-- A monk with a haste buff. -/
example : ∃ stats, mkStats { Ex.rawStats with jobClass := "MNK", version := "6.55" } = .ok stats ∧
    recastTime stats { baseCastTime := 0 } {} {} = .ok 1950 ∧
    recastTime stats { baseCastTime := 0 } { hasteTimeMult := 9 / 10 } {} = .ok 1750 ∧
    recastTime stats { baseCastTime := 0, affectedByHasteBuffs := false } {} {} = .ok 2440 ∧
    getCastTime stats (some { baseCastTime := 2000 }) {} { hasteTimeMult := 9 / 10 } = .ok 1400 := by
  refine ⟨_, rfl, ?_, ?_, ?_, ?_⟩ <;> decide +kernel

/-! ## C45: the stat functions are monotone -/

/-- C45.  All stat functions are defined exactly for the supported versions and levels. -/
theorem C45_supported (x y d : ℚ) (tank : Bool) :
    (Supported version level ↔ ∃ p, getCritStats x version level = .ok p) ∧
    (Supported version level ↔ ∃ a, getDhRate x version level = .ok a) ∧
    (Supported version level ↔ ∃ a, fDet x version level = .ok a) ∧
    (Supported version level ↔ ∃ a, fDetDH x y version level = .ok a) ∧
    (Supported version level ↔ ∃ a, fTnc x version level = .ok a) ∧
    (Supported version level ↔ ∃ a, fSpd x version level = .ok a) ∧
    (Supported version level ↔ ∃ a, fAP x tank version level = .ok a) ∧
    (Supported version level ↔ ∃ a, fWD x y version level = .ok a) ∧
    (Supported version level ↔ ∃ a, fAuto x d y version level = .ok a) ∧
    (Supported version level ↔ ∃ a, getTimeUsingSpeedStat x y version level = .ok a) := by
  refine ⟨⟨fun h => ?_, ?_⟩, ⟨fun h => ?_, ?_⟩, ⟨fun h => ?_, ?_⟩, ⟨fun h => ?_, ?_⟩,
    ⟨fun h => ?_, ?_⟩, ⟨fun h => ?_, ?_⟩, ⟨fun h => ?_, ?_⟩, ⟨fun h => ?_, ?_⟩, ⟨fun h => ?_, ?_⟩,
    ⟨fun h => ?_, ?_⟩⟩
  all_goals first
    | (obtain ⟨r, hr⟩ := exists_row h
       first
        | exact ⟨_, crit_eq hr _⟩
        | exact ⟨_, dh_eq hr _⟩
        | exact ⟨_, det_eq hr _⟩
        | exact ⟨_, detDh_eq hr _ _⟩
        | exact ⟨_, tnc_eq hr _⟩
        | exact ⟨_, spd_eq hr _⟩
        | exact ⟨_, ap_eq hr _ _⟩
        | exact ⟨_, wd_eq hr _ _⟩
        | exact ⟨_, auto_eq hr _ _ _⟩
        | exact ⟨_, time_eq hr _ _⟩)
    | (rintro ⟨_, h⟩
       obtain ⟨_, h1, -⟩ := Py.bind_eq_ok.1 h
       exact supported_of_lookup h1)

/-- C45.  Each function is non-decreasing in its stat(s). -/
theorem C45_monotone (hs : Supported version level) {x x' y y' : ℚ} (hx : x ≤ x') (hy : y ≤ y') :
    (∀ p p', getCritStats x version level = .ok p → getCritStats x' version level = .ok p' →
      p.1 ≤ p'.1 ∧ p.2 ≤ p'.2) ∧
    (∀ a b, getDhRate x version level = .ok a → getDhRate x' version level = .ok b → a ≤ b) ∧
    (∀ a b, fDet x version level = .ok a → fDet x' version level = .ok b → a ≤ b) ∧
    (∀ a b, fDetDH x y version level = .ok a → fDetDH x' y' version level = .ok b → a ≤ b) ∧
    (∀ a b, fTnc x version level = .ok a → fTnc x' version level = .ok b → a ≤ b) ∧
    (∀ a b, fSpd x version level = .ok a → fSpd x' version level = .ok b → a ≤ b) ∧
    (∀ tank a b, fAP x tank version level = .ok a → fAP x' tank version level = .ok b → a ≤ b) ∧
    (∀ a b, fWD x y version level = .ok a → fWD x' y' version level = .ok b → a ≤ b) ∧
    (∀ d d' a b, 0 ≤ d → d ≤ d' → 0 ≤ x → 0 ≤ y → fAuto x d y version level = .ok a →
      fAuto x' d' y' version level = .ok b → a ≤ b) := by
  obtain ⟨r, hr⟩ := exists_row hs
  obtain ⟨p1, p2, p3, p4, p5, p6, p7, p8, p9, p10⟩ := row_pos hr.mem
  refine ⟨?_, ?_, ?_, ?_, ?_, ?_, ?_, ?_, ?_⟩
  · intro p p' h h'
    rw [crit_eq hr] at h h'
    cases h
    cases h'
    have := npFloor_mono (scale_mono (s := r.sub) p2.le p6 hx)
    constructor <;> simp only <;> gcongr
  · intro a b h h'
    rw [dh_eq hr] at h h'
    cases h
    cases h'
    have := npFloor_mono (scale_mono (s := r.sub) p3.le p6 hx)
    gcongr
  · intro a b h h'
    rw [det_eq hr] at h h'
    cases h
    cases h'
    have := npFloor_mono (scale_mono (s := r.main) p4.le p6 hx)
    linarith
  · intro a b h h'
    rw [detDh_eq hr] at h h'
    cases h
    cases h'
    have := npFloor_mono (scale_mono (s := r.main) p4.le p6 hx)
    have := npFloor_mono (scale_mono (s := r.sub) p4.le p6 hy)
    linarith
  · intro a b h h'
    rw [tnc_eq hr] at h h'
    cases h
    cases h'
    have := npFloor_mono (scale_mono (s := r.sub) p5.le p6 hx)
    linarith
  · intro a b h h'
    rw [spd_eq hr] at h h'
    cases h
    cases h'
    apply npFloor_mono
    have := scale_mono (s := r.sub) p1.le p6 hx
    linarith
  · intro tank a b h h'
    rw [ap_eq hr] at h h'
    cases h
    cases h'
    have hc : 0 ≤ (if tank = true then r.fapTank else r.fap) := by
      split_ifs
      · exact p10.le
      · exact p9.le
    have := npFloor_mono (scale_mono (s := r.main) hc p7 hx)
    linarith
  · intro a b h h'
    rw [wd_eq hr] at h h'
    cases h
    cases h'
    apply npFloor_mono
    have : r.main * y / 1000 ≤ r.main * y' / 1000 := by gcongr
    linarith
  · intro d d' a b hd hdd hx0 hy0 h h'
    rw [auto_eq hr] at h h'
    cases h
    cases h'
    apply npFloor_mono
    have h1 : r.main * y / 1000 ≤ r.main * y' / 1000 := by gcongr
    have h2 : npFloor (r.main * y / 1000 + x) ≤ npFloor (r.main * y' / 1000 + x') :=
      npFloor_mono (by linarith)
    have h3 : 0 ≤ npFloor (r.main * y / 1000 + x) := npFloor_nonneg (by positivity)
    exact mul_le_mul h2 (by gcongr) (by positivity) (h3.trans h2)

example : Supported "6.55" 90 ∧ getCritStats 400 "6.55" 90 = .ok (5 / 100, 40 / 100) ∧
    getCritStats 1151 "6.55" 90 = .ok (129 / 1000, 479 / 1000) ∧ fDet 566 "6.55" 90 = .ok 1012 ∧
    fAP 699 true "6.55" 90 = .ok 223 ∧ fAP 699 false "6.55" 90 = .ok 254 :=
  ⟨.inr (.inl rfl), by decide +kernel, by decide +kernel, by decide +kernel, by decide +kernel,
    by decide +kernel⟩

end Ama
