import Verif.Lemmas.SampleMean
import Verif.Props.HitDamage

/-!
# The mean of the samples (C99)
-/

namespace Ama

open Spec DamageTracker DamageSimulator Formulas

variable {raw : RawStats} {stats : Stats} {l : List DamageInstance} {n : ℕ} {wr ws : ℕ → ℕ → Draw}
  {s : DamageSimulator}

/-- C99.  Over all random numbers, the share of critical hits is the critical hit rate and the share of direct hits
the direct hit rate, up to 1/N. -/
theorem C99_hits (h : init stats l n wr ws = .ok s) {N : ℕ} (hN : 0 < N) {i : ℕ}
    (hg : EquallyOften ((List.range n).map (ws i)) (allDraws N)) {row : List (ℚ × Bool × Bool)}
    (hi : s.getDamageMatrix[i]? = some row) {cr dr : ℚ} (hr : s.getCritAndDhRates[i]? = some (cr, dr))
    (hc : IsProb cr) (hd : IsProb dr) :
    (cr ≤ ((row.countP fun x => x.2.1 : ℕ) : ℚ) / row.length ∧
      ((row.countP fun x => x.2.1 : ℕ) : ℚ) / row.length ≤ cr + 1 / N) ∧
    (dr ≤ ((row.countP fun x => x.2.2 : ℕ) : ℚ) / row.length ∧
      ((row.countP fun x => x.2.2 : ℕ) : ℚ) / row.length ≤ dr + 1 / N) := by
  have b := built h
  unfold getDamageMatrix at hi
  rw [b.matrix, List.getElem?_mapIdx] at hi
  unfold getCritAndDhRates at hr
  rw [List.getElem?_map] at hr
  cases hrow : s.tracker.rows[i]? with
  | none => rw [hrow] at hi; cases hi
  | some r =>
    rw [hrow] at hi hr
    obtain ⟨rfl, rfl⟩ := Prod.mk.inj (Option.some.inj hr)
    obtain rfl := Option.some.inj hi
    beta_reduce
    have hlen : ((List.range n).map fun j => getDamage r.baseDamage r.critBonus r.critRate r.dhRate
        r.traitDamageMult r.damageMult (1 / 10) (ws i j)).length = ((List.range n).map (ws i)).length := by simp
    rw [hlen, List.countP_map, List.countP_map]
    have e1 : ((fun x : ℚ × Bool × Bool => x.2.1) ∘ fun j => getDamage r.baseDamage r.critBonus r.critRate r.dhRate
        r.traitDamageMult r.damageMult (1 / 10) (ws i j)) = (fun w => decide (w.crit ≤ r.critRate)) ∘ ws i := by
      funext j
      simp only [Function.comp, getDamage_eq]
    have e2 : ((fun x : ℚ × Bool × Bool => x.2.2) ∘ fun j => getDamage r.baseDamage r.critBonus r.critRate r.dhRate
        r.traitDamageMult r.damageMult (1 / 10) (ws i j)) = (fun w => decide (w.dh ≤ r.dhRate)) ∘ ws i := by
      funext j
      simp only [Function.comp, getDamage_eq]
    rw [e1, e2, ← List.countP_map, ← List.countP_map, share_equally hg, share_equally hg, allDraws_length, allDraws_crit,
      allDraws_dh]
    exact ⟨share_bounds' hN (count_le N hc), share_bounds' hN (count_le N hd)⟩

/-- C99.  The mean of the damage of a hit over all random numbers is the reported expected damage, up to rounding
and the granularity of the random numbers.  As for C98 the hit rates have to be at most 1, and no draw made while
computing the expected damage is zero. -/
theorem C99_instance (hs : mkStats raw = .ok stats) (hc : 0 ≤ raw.critStat) (hm : ∀ x ∈ l, NonNegMults x)
    (h : init stats l n wr ws = .ok s) (hw : ∀ i k, Draw.Valid (wr i k) ∧ Draw.Positive (wr i k))
    (hp : ∀ p ∈ s.getCritAndDhRates, IsProb p.1 ∧ IsProb p.2) {N : ℕ} (hN : 0 < N) {i : ℕ}
    (hg : EquallyOften ((List.range n).map (ws i)) (allDraws N)) {row : List (ℚ × Bool × Bool)}
    (hi : s.getDamageMatrix[i]? = some row) {e : ℚ} (he : s.getExpectedDamagePerInstance[i]? = some e) :
    ∃ x base cr bonus dr trait, s.instances[i]? = some x ∧ HitNumbers raw stats x base cr bonus dr trait ∧
      |meanOf (row.map (·.1)) - e| ≤ meanAllowance base bonus trait (effectMultiplier x) N := by
  have b := built h
  unfold getDamageMatrix at hi
  rw [b.matrix, List.getElem?_mapIdx] at hi
  unfold getExpectedDamagePerInstance at he
  rw [b.mean, List.getElem?_mapIdx] at he
  cases hrow : s.tracker.rows[i]? with
  | none => rw [hrow] at hi; cases hi
  | some r =>
    rw [hrow] at hi he
    obtain rfl := Option.some.inj hi
    obtain rfl := Option.some.inj he
    beta_reduce
    rw [expectedOf_eq (fun k => (hw i k).1) (fun k => (hw i k).2), List.map_map, mean_draws hg]
    obtain ⟨x, hx, hrx⟩ := b.row hrow
    have sane := sane_of hs hc (hm x (b.perm.mem_iff.1 (List.mem_of_getElem? hx))) hrx
    obtain ⟨N', hmult⟩ := hitNumbers_of hs hrx
    have prob := hp (r.critRate, r.dhRate) (List.mem_map.2 ⟨r, List.mem_of_getElem? hrow, rfl⟩)
    refine ⟨x, _, _, _, _, _, hx, N', ?_⟩
    rw [← hmult]
    exact mean_near sane prob.1 prob.2 hN

/-- C99.  The mean of the total damage is the reported expected damage, up to the sum of the allowances. -/
theorem C99_total (hs : mkStats raw = .ok stats) (hc : 0 ≤ raw.critStat) (hm : ∀ x ∈ l, NonNegMults x)
    (h : init stats l n wr ws = .ok s) (hw : ∀ i k, Draw.Valid (wr i k) ∧ Draw.Positive (wr i k))
    (hp : ∀ p ∈ s.getCritAndDhRates, IsProb p.1 ∧ IsProb p.2) {N : ℕ} (hN : 0 < N)
    (hg : ∀ i < l.length, EquallyOften ((List.range n).map (ws i)) (allDraws N)) :
    ∃ allowances : List ℚ, List.Forall₂ (fun x a => ∃ base cr bonus dr trait,
        HitNumbers raw stats x base cr bonus dr trait ∧ a = meanAllowance base bonus trait (effectMultiplier x) N)
        s.instances allowances ∧
      |meanOf s.getRawDamage - s.getExpectedDamage| ≤ allowances.sum := by
  have b := built h
  have hlen : s.tracker.rows.length = l.length := b.length.trans b.perm.length_eq
  have facts : ∀ r ∈ s.tracker.rows, Sane r ∧ IsProb r.critRate ∧ IsProb r.dhRate := by
    intro r hr
    obtain ⟨i, hi⟩ := List.mem_iff_getElem?.1 hr
    obtain ⟨x, hx, hrx⟩ := b.row hi
    have prob := hp (r.critRate, r.dhRate) (List.mem_map.2 ⟨r, hr, rfl⟩)
    exact ⟨sane_of hs hc (hm x (b.perm.mem_iff.1 (List.mem_of_getElem? hx))) hrx, prob.1, prob.2⟩
  refine ⟨s.tracker.rows.map fun r => meanAllowance r.baseDamage r.critBonus r.traitDamageMult r.damageMult N, ?_, ?_⟩
  · rw [List.forall₂_iff_get]
    refine ⟨by simp [b.length], fun i h1 h2 => ?_⟩
    have h3 : i < s.tracker.rows.length := by simpa using h2
    obtain ⟨x, hx, hrx⟩ := b.row (List.getElem?_eq_getElem h3)
    obtain ⟨N', hmult⟩ := hitNumbers_of hs hrx
    have ex : s.instances.get ⟨i, h1⟩ = x := by
      rw [List.getElem?_eq_getElem h1] at hx
      exact Option.some.inj hx
    refine ⟨_, _, _, _, _, ex ▸ N', ?_⟩
    rw [ex, ← hmult]
    simp
  · have e1 : s.getExpectedDamage = (s.tracker.rows.map expectedRow).sum := by
      unfold getExpectedDamage getExpectedDamagePerInstance
      rw [b.mean]
      congr 1
      refine List.ext_getElem? fun i => ?_
      rw [List.getElem?_mapIdx, List.getElem?_map]
      cases s.tracker.rows[i]? with
      | none => rfl
      | some r => exact congrArg some (expectedOf_eq (fun k => (hw i k).1) (fun k => (hw i k).2))
    have e2 : meanOf s.getRawDamage = (s.tracker.rows.map fun r => meanOf ((allDraws N).map (damageOf r))).sum := by
      unfold getRawDamage
      rw [b.sums, b.matrix, mean_sampleSums]
      · congr 1
        refine List.ext_getElem? fun i => ?_
        rw [List.getElem?_map, List.getElem?_mapIdx, List.getElem?_map]
        cases hrow : s.tracker.rows[i]? with
        | none => rfl
        | some r =>
          have hi : i < l.length := hlen ▸ (List.getElem?_eq_some_iff.1 hrow).1
          simp only [Option.map_some, List.map_map]
          exact congrArg some (mean_draws (hg i hi))
      · intro row hrow
        obtain ⟨i, hi⟩ := List.mem_iff_getElem?.1 hrow
        rw [List.getElem?_mapIdx] at hi
        cases hr : s.tracker.rows[i]? with
        | none => rw [hr] at hi; cases hi
        | some r => rw [hr] at hi; cases hi; simp
    rw [e1, e2]
    exact abs_sum_le fun r hr => mean_near (facts r hr).1 (facts r hr).2.1 (facts r hr).2.2 hN

/-- Samples that run through all combinations of 0, 1/4, 1/2 and 3/4. -/
def Ex.everyDraw (_ j : ℕ) : Draw := ⟨(j / 16 : ℕ) / 4, (j / 4 % 4 : ℕ) / 4, (j % 4 : ℕ) / 4⟩

/-- The two hits of C98 with these samples: the mean of the damage, the expected damage, and the shares of critical
and direct hits, with critical hit rates 45.8% and 25.8% and direct hit rate 25.3%. -/
example : mkStats Ex.rawStats = .ok Ex.stats ∧ (∀ x ∈ Ex.insts, NonNegMults x) ∧
    EquallyOften ((List.range 64).map (Ex.everyDraw 0)) (allDraws 4) ∧
    Ex.okAnd (init Ex.stats Ex.insts 64 (fun _ _ => Ex.half) Ex.everyDraw) (fun s =>
      decide (s.getDamageMatrix.map (fun row : List (ℚ × Bool × Bool) => (meanOf (row.map (·.1)), row.countP (·.2.1), row.countP (·.2.2))) =
          [(51395 / 4, 32, 32), (11681, 32, 32)] ∧
        s.getExpectedDamagePerInstance = [753508447 / 62500, 9918130787 / 1000000] ∧
        meanAllowance 8064 (608 / 1000) 1 (11 / 10) 4 < 4922)) = true :=
  ⟨by decide +kernel, Ex.insts_mults, by
    have : (List.range 64).map (Ex.everyDraw 0) = allDraws 4 := by decide +kernel
    exact ⟨1, one_pos, by simp [this]⟩, by decide +kernel⟩

/-- With the random numbers of numpy the allowance of the first hit is less than 7 points of damage. -/
example : meanAllowance 8064 (608 / 1000) 1 (11 / 10) (2 ^ 53) < 7 := by
  norm_num [meanAllowance, hitLoss]

end Ama
