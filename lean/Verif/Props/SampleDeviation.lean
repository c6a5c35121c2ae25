import Verif.Lemmas.SampleDeviation
import Mathlib.Data.Rat.BigOperators
import Mathlib.Tactic.IntervalCases
import Verif.Props.SampleMean
import Verif.Props.Simulation

/-!
# The standard deviation of the samples (C101)
-/

namespace Ama

open Spec DamageTracker DamageSimulator Formulas

variable {raw : RawStats} {stats : Stats} {l : List DamageInstance} {n : ℕ} {wr ws : ℕ → ℕ → Draw}
  {s : DamageSimulator}

/-- C101.  The standard deviation of the damage of a hit over all random numbers is the square root of the reported
variance, up to rounding and the granularity of the random numbers.  As for C99 the hit rates have to be at most 1, and
no draw made while computing the variance is zero. -/
theorem C101_instance (hs : mkStats raw = .ok stats) (hc : 0 ≤ raw.critStat) (hm : ∀ x ∈ l, NonNegMults x)
    (h : init stats l n wr ws = .ok s) (hw : ∀ i k, Draw.Valid (wr i k) ∧ Draw.Positive (wr i k))
    (hp : ∀ p ∈ s.getCritAndDhRates, IsProb p.1 ∧ IsProb p.2) {N : ℕ} (hN : 0 < N) {i : ℕ}
    (hg : EquallyOften ((List.range n).map (ws i)) (allDraws N)) {row : List (ℚ × Bool × Bool)}
    (hi : s.getDamageMatrix[i]? = some row) :
    ∃ x base cr bonus dr trait v, s.instances[i]? = some x ∧ HitNumbers raw stats x base cr bonus dr trait ∧
      s.getVariancePerInstance[i]? = some (some v) ∧
      |√(sampleVariance (row.map (·.1)) : ℚ) - √(v : ℚ)| ≤
        deviationAllowance base bonus trait (effectMultiplier x) N := by
  have b := built h
  unfold getDamageMatrix at hi
  rw [b.matrix, List.getElem?_mapIdx] at hi
  unfold getVariancePerInstance
  rw [b.variance, List.getElem?_mapIdx]
  cases hrow : s.tracker.rows[i]? with
  | none => rw [hrow] at hi; cases hi
  | some r =>
    rw [hrow] at hi
    obtain rfl := Option.some.inj hi
    obtain ⟨x, hx, hrx⟩ := b.row hrow
    have sane := sane_of hs hc (hm x (b.perm.mem_iff.1 (List.mem_of_getElem? hx))) hrx
    obtain ⟨N', hmult⟩ := hitNumbers_of hs hrx
    have prob := hp (r.critRate, r.dhRate) (List.mem_map.2 ⟨r, List.mem_of_getElem? hrow, rfl⟩)
    refine ⟨x, _, _, _, _, _, _, hx, N', congrArg some (if_pos (varianceOf_nonneg prob.1 prob.2)), ?_⟩
    rw [← hmult, rowRanges_eq (fun k => (hw i k).1) (fun k => (hw i k).2), List.map_map]
    have e := sampleVariance_draws (r := r) hg
    rw [e]
    exact deviation_near sane prob.1 prob.2 hN

/-- C101.  If the hits are independent, then the standard deviation of the total damage over the samples is the square
root of the reported variance of the damage, up to the root of the sum of the squared allowances. -/
theorem C101_total (hs : mkStats raw = .ok stats) (hc : 0 ≤ raw.critStat) (hm : ∀ x ∈ l, NonNegMults x)
    (h : init stats l n wr ws = .ok s) (hw : ∀ i k, Draw.Valid (wr i k) ∧ Draw.Positive (wr i k))
    (hp : ∀ p ∈ s.getCritAndDhRates, IsProb p.1 ∧ IsProb p.2) {N : ℕ} (hN : 0 < N)
    (hg : Independent n l.length N ws) :
    ∃ (allowances : List ℝ) (v : ℚ), List.Forall₂ (fun x a => ∃ base cr bonus dr trait,
        HitNumbers raw stats x base cr bonus dr trait ∧
        a = deviationAllowance base bonus trait (effectMultiplier x) N) s.instances allowances ∧
      s.getDamageVariance = some v ∧
      |√(sampleVariance s.getRawDamage : ℚ) - √(v : ℚ)| ≤ √((allowances.map fun a => a ^ 2).sum) := by
  have b := built h
  have hlen : s.tracker.rows.length = l.length := b.length.trans b.perm.length_eq
  have facts : ∀ r ∈ s.tracker.rows, Sane r ∧ IsProb r.critRate ∧ IsProb r.dhRate := by
    intro r hr
    obtain ⟨i, hi⟩ := List.mem_iff_getElem?.1 hr
    obtain ⟨x, hx, hrx⟩ := b.row hi
    have prob := hp (r.critRate, r.dhRate) (List.mem_map.2 ⟨r, hr, rfl⟩)
    exact ⟨sane_of hs hc (hm x (b.perm.mem_iff.1 (List.mem_of_getElem? hx))) hrx, prob.1, prob.2⟩
  obtain ⟨-, -, vs⟩ := C48_totals h
  obtain ⟨vs, hvs, -, hv⟩ := vs hp
  have evs : vs = s.tracker.rows.map fun r =>
      varianceOf [plain r false false, plain r true false, plain r false true, plain r true true] := by
    refine List.ext_getElem? fun i => ?_
    have k : s.getVariancePerInstance[i]? = (vs.map some)[i]? := by rw [hvs]
    unfold getVariancePerInstance at k
    rw [b.variance, List.getElem?_mapIdx, List.getElem?_map] at k
    rw [List.getElem?_map]
    cases hrow : s.tracker.rows[i]? with
    | none =>
      rw [hrow] at k
      cases hvi : vs[i]? with
      | none => rfl
      | some v => rw [hvi] at k; cases k
    | some r =>
      rw [hrow] at k
      have prob := (facts r (List.mem_of_getElem? hrow)).2
      rw [Option.map_some, rowRanges_eq (fun k => (hw i k).1) (fun k => (hw i k).2)] at k
      have nn := varianceOf_nonneg (w := wr i) prob.1 prob.2
      rw [rowRanges_eq (fun k => (hw i k).1) (fun k => (hw i k).2)] at nn
      rw [sqrtSq, if_pos nn] at k
      cases hvi : vs[i]? with
      | none => rw [hvi] at k; cases k
      | some v => rw [hvi] at k; cases k; rfl
  refine ⟨s.tracker.rows.map fun r => deviationAllowance r.baseDamage r.critBonus r.traitDamageMult r.damageMult N,
    vs.sum, ?_, hv, ?_⟩
  · rw [List.forall₂_iff_get]
    refine ⟨by simp [b.length], fun i h1 h2 => ?_⟩
    have h3 : i < s.tracker.rows.length := by simpa using h2
    obtain ⟨x, hx, hrx⟩ := b.row (List.getElem?_eq_getElem h3)
    obtain ⟨N', hmult⟩ := hitNumbers_of hs hrx
    have ex : s.instances.get ⟨i, h1⟩ = x := by
      rw [List.getElem?_eq_getElem h1] at hx
      exact Option.some.inj hx
    refine ⟨_, _, _, _, _, ex ▸ N', ?_⟩
    rw [ex, ← hmult]
    simp
  · have e : sampleVariance s.getRawDamage =
        (s.tracker.rows.map fun r => sampleVariance ((allDraws N).map (damageOf r))).sum := by
      unfold getRawDamage
      rw [b.sums, b.matrix]
      have e1 : sampleSums n (s.tracker.rows.mapIdx fun i r => (List.range n).map fun j =>
          getDamage r.baseDamage r.critBonus r.critRate r.dhRate r.traitDamageMult r.damageMult (1 / 10) (ws i j)) =
          (List.range n).map fun j => ((s.tracker.rows.mapIdx fun i r => fun j => damageOf r (ws i j)).map
            fun f => f j).sum := by
        unfold sampleSums
        refine List.map_congr_left fun j hj => ?_
        congr 1
        refine List.ext_getElem? fun i => ?_
        rw [List.getElem?_map, List.getElem?_map, List.getElem?_mapIdx, List.getElem?_mapIdx]
        cases hrow : s.tracker.rows[i]? with
        | none => rfl
        | some r =>
          simp only [Option.map_some, List.getElem?_map, List.getElem?_range (List.mem_range.1 hj), Option.getD_some]
      rw [e1, variance_total]
      · congr 1
        refine List.ext_getElem? fun i => ?_
        rw [List.getElem?_map, List.getElem?_mapIdx, List.getElem?_map]
        cases hrow : s.tracker.rows[i]? with
        | none => rfl
        | some r =>
          have hi : i < l.length := hlen ▸ (List.getElem?_eq_some_iff.1 hrow).1
          exact congrArg some (sampleVariance_draws (hg.1 i hi))
      · rw [List.pairwise_iff_getElem]
        intro i j hi hj hij
        rw [List.getElem_mapIdx, List.getElem_mapIdx]
        rw [List.length_mapIdx, hlen] at hi hj
        exact uncorrelated_of _ _ (hg.2 i hi j hj hij.ne) (hg.1 i hi) (hg.1 j hj)
    rw [e, evs, Rat.cast_list_sum, Rat.cast_list_sum, List.map_map, List.map_map, List.map_map]
    refine sqrt_sum_near fun r hr => ?_
    obtain ⟨f1, f2, f3⟩ := facts r hr
    have hne : allDraws N ≠ [] := by
      rw [← List.length_pos_iff, allDraws_length]
      positivity
    have n1 := variance_nonneg hne (damageOf r)
    have n2 := varianceOf_nonneg (w := wr 0) f2 f3
    rw [rowRanges_eq (fun k => (hw 0 k).1) (fun k => (hw 0 k).2)] at n2
    exact ⟨Rat.cast_nonneg.2 n1, Rat.cast_nonneg.2 n2, deviation_near f1 f2 f3 hN⟩

/-- The two hits of C99 with all combinations of 0, 1/4, 1/2 and 3/4: the variance of the samples and the reported
one, which make standard deviations of 3356 and 3145 for the first hit, 3051 and 2524 for the second. -/
example : mkStats Ex.rawStats = .ok Ex.stats ∧ (∀ x ∈ Ex.insts, NonNegMults x) ∧
    EquallyOften ((List.range 64).map (Ex.everyDraw 0)) (allDraws 4) ∧
    Ex.okAnd (init Ex.stats Ex.insts 64 (fun _ _ => Ex.half) Ex.everyDraw) (fun s =>
      decide (s.getDamageMatrix.map (fun row : List (ℚ × Bool × Bool) => sampleVariance (row.map (·.1))) =
          [180181833 / 16, 74457313 / 8] ∧
        s.getVariancePerInstance = [some (115920408585600823 / 11718750000), some (6369566090034760631 / 1000000000000)])) = true :=
  ⟨by decide +kernel, Ex.insts_mults, by
    have : (List.range 64).map (Ex.everyDraw 0) = allDraws 4 := by decide +kernel
    exact ⟨1, one_pos, by simp [this]⟩, by decide +kernel⟩

/-- With the random numbers of numpy the allowance of the first hit is less than 7 points of damage. -/
example : deviationAllowance 8064 (608 / 1000) 1 (11 / 10) (2 ^ 53) < 7 := by
  have h : √(3 / (2 ^ 53 : ℕ) : ℝ) ≤ 1 / 50000000 := by
    rw [Real.sqrt_le_left (by norm_num)]
    norm_num
  have k : (0 : ℝ) ≤ (topDamage 8064 (608 / 1000) 1 (11 / 10) : ℚ) := by norm_num [topDamage, hitMultiplier]
  unfold deviationAllowance
  refine lt_of_le_of_lt (add_le_add_right (mul_le_mul_of_nonneg_left h k) _) ?_
  norm_num [topDamage, hitMultiplier, hitLoss]

/-- Samples in which two hits run through all combinations of 0 and 1/2 independently. -/
def Ex.bothDraws (i j : ℕ) : Draw :=
  let k := if i = 0 then j / 8 else j % 8
  ⟨(k / 4 : ℕ) / 2, (k / 2 % 2 : ℕ) / 2, (k % 2 : ℕ) / 2⟩

/-- The two hits of C99 with these samples: the variance of the total damage and the reported one. -/
example : Independent 64 Ex.insts.length 2 Ex.bothDraws ∧
    Ex.okAnd (init Ex.stats Ex.insts 64 (fun _ _ => Ex.half) Ex.bothDraws) (fun s =>
      decide (sampleVariance s.getRawDamage = 1280237847 / 64 ∧
        s.getDamageVariance = some (48784322868018092581 / 3000000000000))) = true := by
  refine ⟨⟨fun i hi => ?_, fun i hi i' hi' hne => ?_⟩, by decide +kernel⟩
  · refine ⟨8, by norm_num, ?_⟩
    change i < 2 at hi
    interval_cases i <;> decide +kernel
  · refine ⟨1, by norm_num, ?_⟩
    change i < 2 at hi
    change i' < 2 at hi'
    interval_cases i <;> interval_cases i' <;> first | exact absurd rfl hne | decide +kernel

end Ama
