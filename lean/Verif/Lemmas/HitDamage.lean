import Verif.Spec.HitDamage
import Verif.Lemmas.FormulasByClass
import Verif.Lemmas.Stronger

/-!
# Lemmas about the damage of a hit without rounding
-/

namespace Ama.Formulas

open Spec DamageTracker DamageSimulator

/-- Adding a share. -/
theorem share_bounds {x y c l : ℚ} (hc : 0 ≤ c) (h : y - l ≤ x ∧ x ≤ y) :
    y * (1 + c) - (l * (1 + c) + 1) ≤ x + npFloor (x * c) ∧ x + npFloor (x * c) ≤ y * (1 + c) := by
  obtain ⟨a1, a2⟩ := floor_one (x * c)
  have k1 := mul_le_mul_of_nonneg_right h.1 hc
  have k2 := mul_le_mul_of_nonneg_right h.2 hc
  constructor <;> linarith

/-- Multiplying. -/
theorem times_bounds {x y c l : ℚ} (hc : 0 ≤ c) (h : y - l ≤ x ∧ x ≤ y) :
    y * c - (l * c + 1) ≤ npFloor (x * c) ∧ npFloor (x * c) ≤ y * c := by
  obtain ⟨a1, a2⟩ := floor_one (x * c)
  have k1 := mul_le_mul_of_nonneg_right h.1 hc
  have k2 := mul_le_mul_of_nonneg_right h.2 hc
  constructor <;> linarith

theorem afterSpread_bounds {bonus trait mult : ℚ} (hb : 0 ≤ bonus) (ht : 0 ≤ trait) (hm : 0 ≤ mult) (y : ℚ)
    (crit dh : Bool) :
    y * hitMultiplier bonus trait mult crit dh - hitLoss bonus trait mult ≤
        afterSpread bonus trait mult (npFloor y) crit dh ∧
      afterSpread bonus trait mult (npFloor y) crit dh ≤ y * hitMultiplier bonus trait mult crit dh := by
  have c0 : 0 ≤ bonus * boolNum crit := mul_nonneg hb (boolNum_nonneg crit)
  have d0 : 0 ≤ GameConsts.DH_DAMAGE_MULT_BONUS * boolNum dh :=
    mul_nonneg (by norm_num [GameConsts.DH_DAMAGE_MULT_BONUS]) (boolNum_nonneg dh)
  have h := times_bounds hm (times_bounds ht (share_bounds d0 (share_bounds c0 (floor_one y))))
  have ec : bonus * boolNum crit = if crit then bonus else 0 := by cases crit <;> simp [boolNum]
  have ed : GameConsts.DH_DAMAGE_MULT_BONUS * boolNum dh = if dh then 1 / 4 else 0 := by
    cases dh <;> simp [boolNum, GameConsts.DH_DAMAGE_MULT_BONUS]
  have hcl : (if crit then bonus else 0) ≤ bonus := by split_ifs <;> simp [hb]
  have hdl : (if dh then (1 / 4 : ℚ) else 0) ≤ 1 / 4 := by split_ifs <;> norm_num
  unfold afterSpread hitMultiplier hitLoss
  rw [ec] at h c0
  rw [ed] at h d0
  simp only [ec, ed]
  generalize (if crit then bonus else 0) = c at *
  generalize (if dh then (1 / 4 : ℚ) else 0) = e at *
  have hl : (((1 * (1 + c) + 1) * (1 + e) + 1) * trait + 1) * mult + 1 ≤
      (((1 + bonus + 1) * (1 + 1 / 4) + 1) * trait + 1) * mult + 1 := by
    rw [one_mul]
    gcongr
  constructor
  · refine le_trans ?_ h.1
    have e1 : y * ((1 + c) * (1 + e) * trait * mult) = y * (1 + c) * (1 + e) * trait * mult := by ring
    rw [e1]
    linarith
  · refine h.2.trans (le_of_eq ?_)
    ring

theorem mid_bounds {r : DamageRow} (h : Sane r) (crit dh : Bool) :
    r.baseDamage * hitMultiplier r.critBonus r.traitDamageMult r.damageMult crit dh -
        hitLoss r.critBonus r.traitDamageMult r.damageMult ≤ mid r crit dh ∧
      mid r crit dh ≤ r.baseDamage * hitMultiplier r.critBonus r.traitDamageMult r.damageMult crit dh := by
  obtain ⟨a1, a2⟩ := afterSpread_bounds h.bonus h.trait h.mult (95 / 100 * r.baseDamage) crit dh
  obtain ⟨b1, b2⟩ := afterSpread_bounds h.bonus h.trait h.mult (105 / 100 * r.baseDamage) crit dh
  unfold mid plain lowInit highInit
  simp only
  constructor <;> linarith

theorem expectedRow_bounds {r : DamageRow} (h : Sane r) (hc : IsProb r.critRate) (hd : IsProb r.dhRate) :
    r.baseDamage * meanMultiplier r.critRate r.critBonus r.dhRate r.traitDamageMult r.damageMult -
        hitLoss r.critBonus r.traitDamageMult r.damageMult ≤ expectedRow r ∧
      expectedRow r ≤
        r.baseDamage * meanMultiplier r.critRate r.critBonus r.dhRate r.traitDamageMult r.damageMult := by
  obtain ⟨a1, a2⟩ := mid_bounds h false false
  obtain ⟨b1, b2⟩ := mid_bounds h true false
  obtain ⟨c1, c2⟩ := mid_bounds h false true
  obtain ⟨d1, d2⟩ := mid_bounds h true true
  have pa : 0 ≤ (1 - r.critRate) * (1 - r.dhRate) := mul_nonneg (by linarith [hc.2]) (by linarith [hd.2])
  have pb : 0 ≤ r.critRate * (1 - r.dhRate) := mul_nonneg hc.1 (by linarith [hd.2])
  have pc : 0 ≤ (1 - r.critRate) * r.dhRate := mul_nonneg (by linarith [hc.2]) hd.1
  have pd : 0 ≤ r.critRate * r.dhRate := mul_nonneg hc.1 hd.1
  have ka1 := mul_le_mul_of_nonneg_left a1 pa
  have ka2 := mul_le_mul_of_nonneg_left a2 pa
  have kb1 := mul_le_mul_of_nonneg_left b1 pb
  have kb2 := mul_le_mul_of_nonneg_left b2 pb
  have kc1 := mul_le_mul_of_nonneg_left c1 pc
  have kc2 := mul_le_mul_of_nonneg_left c2 pc
  have kd1 := mul_le_mul_of_nonneg_left d1 pd
  have kd2 := mul_le_mul_of_nonneg_left d2 pd
  unfold expectedRow meanMultiplier
  unfold hitMultiplier at *
  simp only [Bool.false_eq_true, if_false, if_true] at *
  constructor <;> linarith

/-- The numbers of a row of the tracker. -/
theorem hitNumbers_of {raw : RawStats} {stats : Stats} (hs : mkStats raw = .ok stats) {x : DamageInstance}
    {r : DamageRow} (h : rowOf stats x = .ok r) :
    HitNumbers raw stats x r.baseDamage r.critRate r.critBonus r.dhRate r.traitDamageMult ∧
      r.damageMult = effectMultiplier x := by
  obtain ⟨b, dh, cr, bo, d, h1, h2, h3, rfl⟩ := rowOf_ok h
  refine ⟨⟨h1, h2, ?_, d, h3, ?_⟩, rfl⟩
  · simp only
    rw [critBonus_of h2]
    obtain ⟨b1, b2, -⟩ := critBonus_between hs
    exact ⟨b1, b2⟩
  · simp only
    rw [(statFacts hs).trait]

end Ama.Formulas
