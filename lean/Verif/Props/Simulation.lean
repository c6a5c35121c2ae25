import Verif.Lemmas.Simulation
import Verif.Props.BaseDamage
import Verif.Examples.Rotation

/-!
# Simulated damage (C46-C49, C59-C62)
-/

namespace Ama

open Spec DamageTracker DamageSimulator

namespace Ex

/-- A draw in the middle. -/
def half : Draw := ⟨1 / 2, 1 / 2, 1 / 2⟩

/-- An instance of `hit` at a time, with buffs. -/
def inst (t : ℚ) (buffs debuffs : StatusEffects) (id : ℕ) : DamageInstance :=
  ⟨t, hit, {}, buffs, debuffs, id, "Boss"⟩

/-- Two instances out of order. -/
def insts : List DamageInstance :=
  [inst 2000 {} {} 1, inst 0 { damageMult := 11 / 10 } { critRateAdd := 1 / 5 } 0]

theorem insts_mults : ∀ x ∈ insts, NonNegMults x := by
  intro x hx
  simp only [insts, List.mem_cons, List.not_mem_nil, or_false] at hx
  rcases hx with rfl | rfl <;>
  · refine ⟨by norm_num [inst], by norm_num [inst], fun d t h1 h2 => ?_⟩
    have : (inst 0 {} {} 1).skill.getDamageSpec {} = .ok (some { potency := 300 }) := rfl
    rw [show d = { potency := 300 } by
      have h := h1.symm.trans this
      injection h with h
      injection h] at h2
    cases h2

theorem half_valid : Draw.Valid half := by norm_num [Draw.Valid, half]

theorem half_positive : Draw.Positive half := by norm_num [Draw.Positive, half]

end Ex

/-! ## C46: outcome probabilities -/

section

variable {stats : Stats} {l : List DamageInstance} {n : ℕ} {wr ws : ℕ → ℕ → Draw} {s : DamageSimulator}

/-- C46.  The report of every instance has one entry for each of the four outcomes; its probability is the
product of the probabilities of the critical hit status and of the direct hit status; the four
probabilities sum to 1; and they lie in [0,1] if the rates do. -/
theorem C46_distribution (h : init stats l n wr ws = .ok s) {w : ℕ → ℕ → Draw}
    {rs : List (String × List OutcomeRange)} (hr : s.getDamageRanges w = .ok rs) {i : ℕ} {name : String}
    {os : List OutcomeRange} (hi : rs[i]? = some (name, os)) :
    os.length = 4 ∧ (os.map (·.probability)).sum = 1 ∧
    ∃ cr dr, s.getCritAndDhRates[i]? = some (cr, dr) ∧
      (∀ c d, ∃ o, os[place c d]? = some o ∧ o.probability = probOf c cr * probOf d dr) ∧
      (IsProb cr → IsProb dr → ∀ o ∈ os, IsProb o.probability) := by
  obtain ⟨x, r, hx, hrow, hrx, -, rfl⟩ := (built h).ranges_get hr hi
  refine ⟨rfl, ?_, r.critRate, r.dhRate, ?_, ?_, ?_⟩
  · rw [rowRanges_probs]
    simp [probOf]
    ring
  · unfold getCritAndDhRates
    rw [List.getElem?_map, hrow]
    rfl
  · intro c d
    cases c <;> cases d <;> exact ⟨_, rfl, by simp [probOf]⟩
  · intro hc hd o ho
    have hm : o.probability ∈ (rowRanges r (w i)).map (·.probability) := List.mem_map_of_mem ho
    rw [rowRanges_probs] at hm
    have key : ∀ {p q : ℚ}, IsProb p → IsProb q → IsProb (p * q) := fun a b =>
      ⟨mul_nonneg a.1 b.1, mul_le_one₀ a.2 b.1 b.2⟩
    have k2 : ∀ {p : ℚ} (b : Bool), IsProb p → IsProb (probOf b p) := by
      intro p b hp
      cases b
      · exact ⟨by simpa [probOf] using hp.2, by simpa [probOf] using hp.1⟩
      · exact hp
    simp only [List.mem_cons, List.not_mem_nil, or_false] at hm
    rcases hm with e | e | e | e <;> rw [e] <;> exact key (k2 _ hc) (k2 _ hd)

/-! ## C47: every sample lies in the range of its outcome -/

/-- C47, for reports made with positive draws.  Missing: when a report is made, a draw for a hit that is
exactly 0 counts as a hit even for rate 0 (`C47_refuted`).

The damage of every sample of every instance lies between the reported low and high damage of the outcome
with the critical and direct hit status of that sample, for all draws of the samples. -/
theorem C47_range_partial {raw : RawStats} (hs : mkStats raw = .ok stats) (hc : 0 ≤ raw.critStat)
    (hm : ∀ x ∈ l, NonNegMults x) (h : init stats l n wr ws = .ok s) {w : ℕ → ℕ → Draw}
    (hv : ∀ i k, Draw.Valid (w i k)) (hp : ∀ i k, Draw.Positive (w i k))
    (hw : ∀ i j, Draw.Valid (ws i j))
    {rs : List (String × List OutcomeRange)} (hr : s.getDamageRanges w = .ok rs) {i j : ℕ}
    {row : List (ℚ × Bool × Bool)} {x : ℚ} {crit dh : Bool} (hi : s.getDamageMatrix[i]? = some row)
    (hj : row[j]? = some (x, crit, dh)) :
    ∃ name os o, rs[i]? = some (name, os) ∧ os[place crit dh]? = some o ∧ o.low ≤ x ∧ x ≤ o.high := by
  have b := built h
  unfold getDamageMatrix at hi
  rw [b.matrix, List.getElem?_mapIdx] at hi
  cases hrow : s.tracker.rows[i]? with
  | none => rw [hrow] at hi; cases hi
  | some r =>
    rw [hrow] at hi
    cases hi
    rw [List.getElem?_map] at hj
    cases hjj : (List.range n)[j]? with
    | none => rw [hjj] at hj; cases hj
    | some j' =>
      rw [hjj] at hj
      obtain ⟨y, hy, hrx⟩ := b.row hrow
      have sane := sane_of hs hc (hm y (b.perm.mem_iff.1 (List.mem_of_getElem? hy))) hrx
      have := sample_between sane (hw i j')
      have e := Option.some.inj hj
      simp only [e] at this
      rw [b.ranges w] at hr
      cases hr
      refine ⟨y.skill.name, rowRanges r (w i), plain r crit dh, ?_, ?_, this.1, this.2⟩
      · rw [List.getElem?_zip_eq_some, List.getElem?_map, hy, List.getElem?_mapIdx, hrow]
        exact ⟨rfl, rfl⟩
      · exact rowRanges_get (hv i) (hp i) crit dh

/-- Two instances, two samples. -/
example : mkStats Ex.rawStats = .ok Ex.stats ∧ (∀ x ∈ Ex.insts, NonNegMults x) ∧
    Ex.okAnd (init Ex.stats Ex.insts 2 (fun _ _ => Ex.half) (fun i j => ⟨i / 2, j / 2, 1 / 3⟩)) (fun s =>
      Ex.okAnd (s.getDamageRanges fun _ _ => Ex.half) fun rs =>
        decide (s.getDamageMatrix = [[(13548, true, false), (8426, false, false)],
          [(12966, true, false), (8064, false, false)]] ∧
        rs.map (fun x => x.2.map fun o => (o.low, o.high)) =
          [[(8426, 9313), (13548, 14975), (10532, 11641), (16935, 18718)],
           [(7660, 8467), (12317, 13614), (9575, 10583), (15396, 17017)]])) = true :=
  ⟨by decide +kernel, Ex.insts_mults, by decide +kernel⟩

/-- C47 is false of the code if the report happens to draw zeros: the critical hit rate 0 used for the
outcome without a critical hit is at least the draw, so that the reported bounds are those of a critical
direct hit. -/
theorem C47_refuted : ∃ (raw : RawStats) (stats : Stats) (l : List DamageInstance) (s : DamageSimulator)
    (w : ℕ → ℕ → Draw) (rs : List (String × List OutcomeRange)) (row : List (ℚ × Bool × Bool)) (x : ℚ)
    (name : String) (os : List OutcomeRange) (o : OutcomeRange),
    mkStats raw = .ok stats ∧ 0 ≤ raw.critStat ∧ (∀ x ∈ l, NonNegMults x) ∧
    (∀ i k, Draw.Valid (w i k)) ∧ Draw.Valid Ex.half ∧
    init stats l 1 (fun _ _ => Ex.half) (fun _ _ => Ex.half) = .ok s ∧ s.getDamageRanges w = .ok rs ∧
    s.getDamageMatrix[1]? = some row ∧ row[0]? = some (x, false, false) ∧ rs[1]? = some (name, os) ∧
    os[place false false]? = some o ∧ x < o.low := by
  have h : Ex.okAnd (init Ex.stats Ex.insts 1 (fun _ _ => Ex.half) (fun _ _ => Ex.half)) (fun s =>
      Ex.okAnd (s.getDamageRanges fun _ _ => ⟨0, 0, 0⟩) fun rs =>
        decide (∃ row ∈ s.getDamageMatrix[1]?, ∃ x ∈ row[0]?, x.2 = (false, false) ∧
          ∃ p ∈ rs[1]?, ∃ o ∈ p.2[place false false]?, x.1 < o.low)) = true := by
    decide +kernel
  obtain ⟨s, h1, h⟩ := Ex.ok_of h
  obtain ⟨rs, h2, h⟩ := Ex.ok_of h
  obtain ⟨row, h3, ⟨x, c, d⟩, h4, h5, ⟨name, os⟩, h6, o, h7, h8⟩ := of_decide_eq_true h
  cases h5
  exact ⟨Ex.rawStats, Ex.stats, Ex.insts, s, _, rs, row, x, name, os, o, by decide +kernel,
    by norm_num [Ex.rawStats], Ex.insts_mults, fun _ _ => by norm_num [Draw.Valid], Ex.half_valid, h1, h2,
    h3, h4, h6, h7, h8⟩

/-! ## C48: expected damage and variance -/

/-- Reports made with positive draws are all the same. -/
theorem C48_reports_agree (h : init stats l n wr ws = .ok s) {w w' : ℕ → ℕ → Draw}
    (hv : ∀ i k, Draw.Valid (w i k)) (hp : ∀ i k, Draw.Positive (w i k))
    (hv' : ∀ i k, Draw.Valid (w' i k)) (hp' : ∀ i k, Draw.Positive (w' i k)) :
    s.getDamageRanges w = s.getDamageRanges w' := by
  rw [(built h).ranges w, (built h).ranges w']
  simp only [fun i r => rowRanges_eq (r := r) (hv i) (hp i), fun i r => rowRanges_eq (r := r) (hv' i) (hp' i)]

/-- C48, expected damage.  Missing: reports made with a draw that is exactly 0 (`C48_expected_refuted`).

If the rates are in [0,1], the expected damage of an instance is not below the smallest reported low and
not above the greatest reported high. -/
theorem C48_expected_partial {raw : RawStats} (hs : mkStats raw = .ok stats) (hc : 0 ≤ raw.critStat)
    (hm : ∀ x ∈ l, NonNegMults x) (h : init stats l n wr ws = .ok s)
    {w : ℕ → ℕ → Draw} (hv : ∀ i k, Draw.Valid (w i k)) (hp : ∀ i k, Draw.Positive (w i k))
    {rs : List (String × List OutcomeRange)} (hr : s.getDamageRanges w = .ok rs) {i : ℕ} {name : String}
    {os : List OutcomeRange} (hi : rs[i]? = some (name, os)) {cr dr : ℚ}
    (hrates : s.getCritAndDhRates[i]? = some (cr, dr)) (hcr : IsProb cr) (hdr : IsProb dr) :
    ∃ m, s.getExpectedDamagePerInstance[i]? = some m ∧
      (∃ o ∈ os, o.low ≤ m) ∧ (∃ o ∈ os, m ≤ o.high) := by
  have b := built h
  obtain ⟨x, r, hx, hrow, hrx, -, rfl⟩ := b.ranges_get hr hi
  have sane := sane_of hs hc (hm x (b.perm.mem_iff.1 (List.mem_of_getElem? hx))) hrx
  unfold getCritAndDhRates at hrates
  rw [List.getElem?_map, hrow] at hrates
  cases hrates
  refine ⟨expectedOf (rowRanges r (wr i)), ?_, ⟨plain r false false, ?_, ?_⟩, ⟨plain r true true, ?_, ?_⟩⟩
  · unfold getExpectedDamagePerInstance
    rw [b.mean, List.getElem?_mapIdx, hrow]
    rfl
  · rw [rowRanges_eq (hv i) (hp i)]
    simp
  · exact (expectedOf_between sane hcr hdr).1
  · rw [rowRanges_eq (hv i) (hp i)]
    simp
  · exact (expectedOf_between sane hcr hdr).2

/-- C48, expected damage: false of the code if the report happens to draw zeros.  Then all four outcomes
are those of a critical direct hit, and the expected damage is below all of them. -/
theorem C48_expected_refuted : ∃ (raw : RawStats) (stats : Stats) (l : List DamageInstance)
    (s : DamageSimulator) (w : ℕ → ℕ → Draw) (rs : List (String × List OutcomeRange)) (name : String)
    (os : List OutcomeRange) (m cr dr : ℚ),
    mkStats raw = .ok stats ∧ 0 ≤ raw.critStat ∧ (∀ x ∈ l, NonNegMults x) ∧
    (∀ i k, Draw.Valid (w i k)) ∧ Draw.Valid Ex.half ∧
    init stats l 1 (fun _ _ => Ex.half) (fun _ _ => Ex.half) = .ok s ∧ s.getDamageRanges w = .ok rs ∧
    rs[1]? = some (name, os) ∧ s.getCritAndDhRates[1]? = some (cr, dr) ∧ IsProb cr ∧ IsProb dr ∧
    s.getExpectedDamagePerInstance[1]? = some m ∧ ∀ o ∈ os, m < o.low := by
  have h : Ex.okAnd (init Ex.stats Ex.insts 1 (fun _ _ => Ex.half) (fun _ _ => Ex.half)) (fun s =>
      Ex.okAnd (s.getDamageRanges fun _ _ => ⟨0, 0, 0⟩) fun rs =>
        decide (∃ p ∈ rs[1]?, ∃ m ∈ s.getExpectedDamagePerInstance[1]?, ∃ c ∈ s.getCritAndDhRates[1]?,
          ((0 ≤ c.1 ∧ c.1 ≤ 1) ∧ 0 ≤ c.2 ∧ c.2 ≤ 1) ∧ ∀ o ∈ p.2, m < o.low)) = true := by
    decide +kernel
  obtain ⟨s, h1, h⟩ := Ex.ok_of h
  obtain ⟨rs, h2, h⟩ := Ex.ok_of h
  obtain ⟨⟨name, os⟩, h3, m, h4, ⟨cr, dr⟩, h5, ⟨h6, h7⟩, h8⟩ := of_decide_eq_true h
  exact ⟨Ex.rawStats, Ex.stats, Ex.insts, s, _, rs, name, os, m, cr, dr, by decide +kernel,
    by norm_num [Ex.rawStats], Ex.insts_mults, fun _ _ => by norm_num [Draw.Valid], Ex.half_valid, h1, h2,
    h3, h5, h6, h7, h4, h8⟩

/-- C48, expected damage and variance.  Each outcome is uniform between its low and its high.  The expected
damage is the mean of the mixture of the outcomes of the report made with the same draws.  If the rates
are in [0,1], the variance is a number, it is not negative, and it is the second moment of that mixture
minus the square of the mean. -/
theorem C48_variance (h : init stats l n wr ws = .ok s)
    {rs : List (String × List OutcomeRange)} (hr : s.getDamageRanges wr = .ok rs) {i : ℕ} {name : String}
    {os : List OutcomeRange} (hi : rs[i]? = some (name, os)) {cr dr : ℚ}
    (hrates : s.getCritAndDhRates[i]? = some (cr, dr)) (hcr : IsProb cr) (hdr : IsProb dr) :
    ∃ m v, s.getExpectedDamagePerInstance[i]? = some m ∧ s.getVariancePerInstance[i]? = some (some v) ∧
      0 ≤ v ∧ m = (os.map fun o => o.probability * firstMoment o.low o.high).sum ∧
      v = (os.map fun o => o.probability * secondMoment o.low o.high).sum - m ^ 2 := by
  have b := built h
  obtain ⟨x, r, hx, hrow, hrx, -, rfl⟩ := b.ranges_get hr hi
  unfold getCritAndDhRates at hrates
  rw [List.getElem?_map, hrow] at hrates
  cases hrates
  have hv := varianceOf_nonneg (r := r) (w := wr i) hcr hdr
  refine ⟨expectedOf (rowRanges r (wr i)), varianceOf (rowRanges r (wr i)), ?_, ?_, hv, rfl, ?_⟩
  · unfold getExpectedDamagePerInstance
    rw [b.mean, List.getElem?_mapIdx, hrow]
    rfl
  · unfold getVariancePerInstance
    rw [b.variance, List.getElem?_mapIdx, hrow]
    simp [sqrtSq, hv]
  · exact varianceOf_eq _

/-- C48, totals.  The expected damage is the sum over the instances, and so is the variance if all rates
are in [0,1]. -/
theorem C48_totals (h : init stats l n wr ws = .ok s) :
    s.getExpectedDamagePerInstance.length = l.length ∧
    s.getExpectedDamage = s.getExpectedDamagePerInstance.sum ∧
    ((∀ p ∈ s.getCritAndDhRates, IsProb p.1 ∧ IsProb p.2) →
      ∃ vs : List ℚ, s.getVariancePerInstance = vs.map some ∧ (∀ v ∈ vs, 0 ≤ v) ∧
        s.getDamageVariance = some vs.sum) := by
  have b := built h
  refine ⟨?_, rfl, fun hp => ?_⟩
  · unfold getExpectedDamagePerInstance
    rw [b.mean, List.length_mapIdx, b.length, b.perm.length_eq]
  · have key : s.getVariancePerInstance =
        (s.tracker.rows.mapIdx fun i r => varianceOf (rowRanges r (wr i))).map some := by
      unfold getVariancePerInstance
      rw [b.variance]
      refine List.ext_getElem? fun i => ?_
      simp only [List.getElem?_mapIdx, List.getElem?_map, Option.map_map]
      cases hrow : s.tracker.rows[i]? with
      | none => rfl
      | some r =>
        have := hp (r.critRate, r.dhRate) (List.mem_map.2 ⟨r, List.mem_of_getElem? hrow, rfl⟩)
        simp [sqrtSq, varianceOf_nonneg this.1 this.2]
    refine ⟨_, key, ?_, ?_⟩
    · intro v hv
      obtain ⟨i, hi, rfl⟩ := List.mem_mapIdx.1 hv
      have := hp (_, _) (List.mem_map.2 ⟨_, List.getElem_mem hi, rfl⟩)
      exact varianceOf_nonneg this.1 this.2
    · unfold getDamageVariance
      rw [key]
      generalize (s.tracker.rows.mapIdx fun i r => varianceOf (rowRanges r (wr i))) = vs
      induction vs with
      | nil => rfl
      | cons v vs ih => simp only [List.map_cons, List.foldr_cons, ih, List.sum_cons]; rfl

/-- The two instances: expected damage and variance. -/
example : Ex.okAnd (init Ex.stats Ex.insts 2 (fun _ _ => Ex.half) (fun _ _ => Ex.half)) (fun s =>
      decide (s.getExpectedDamagePerInstance = [753508447 / 62500, 9918130787 / 1000000] ∧
        s.getVariancePerInstance = [some (115920408585600823 / 11718750000),
          some (6369566090034760631 / 1000000000000)] ∧
        s.getCritAndDhRates = [(229 / 500, 253 / 1000), (129 / 500, 253 / 1000)])) = true := by
  decide +kernel

/-! ## C49: which lists can be simulated -/

/-- C49 for 1 to 5000 instances.  Missing: the empty list and longer lists (`C49_refuted`).

If the damage of every instance can be computed, the simulation succeeds, with one row per instance and
one total per sample. -/
theorem C49_succeeds_partial (hx : ∀ x ∈ l, Computable stats x) (h0 : l ≠ []) (h1 : l.length ≤ 5000)
    (n : ℕ) (wr ws : ℕ → ℕ → Draw) :
    ∃ s, init stats l n wr ws = .ok s ∧ s.getDamageMatrix.length = l.length ∧
      s.getRawDamage.length = n := by
  obtain ⟨rows, hr⟩ := mapM_ok (f := rowOf stats) (l := sortBy (·.time) l) (fun x hx' =>
    rowOf_total (hx x ((sortBy_perm _ l).mem_iff.1 hx')))
  have hlen : rows.length = l.length := by rw [mapM_length hr, (sortBy_perm _ l).length_eq]
  refine ⟨_, init_total hr h0 (by rw [hlen]; exact h1) n wr ws, ?_, ?_⟩
  · simp [getDamageMatrix, made, hlen]
  · simp [getRawDamage, made, sampleSums]

/-- C49 is false of the code for the empty list and for every list of more than 5000 instances: the first
raises `AxisError` (a `ValueError`), the second `IndexError`. -/
theorem C49_refuted (n : ℕ) (wr ws : ℕ → ℕ → Draw) :
    init stats [] n wr ws = .error .valueError ∧
    ∀ l : List DamageInstance, (∀ x ∈ l, Computable stats x) → 5000 < l.length →
      init stats l n wr ws = .error .indexError := by
  refine ⟨rfl, fun l hx hl => ?_⟩
  obtain ⟨rows, hr⟩ := mapM_ok (f := rowOf stats) (l := sortBy (·.time) l) (fun x hx' =>
    rowOf_total (hx x ((sortBy_perm _ l).mem_iff.1 hx')))
  have hlen : rows.length = l.length := by rw [mapM_length hr, (sortBy_perm _ l).length_eq]
  unfold init
  simp only []
  rw [fill_eq, fill_overflow rfl hr (by simp) (by simp [hlen, capacity]; omega)]
  rfl

theorem Ex.inst_computable (t : ℚ) (id : ℕ) : Computable Ex.stats (Ex.inst t {} {} id) :=
  ⟨⟨8064, show ComputeDamage.getBaseDamage Ex.hit {} Ex.stats ({}, {}) = _ by decide +kernel⟩,
    ⟨(253 / 1000, 129 / 500, 76 / 125),
      show ComputeDamage.critRatesAndBonuses Ex.stats Ex.hit {} ({}, {}) = _ by decide +kernel⟩⟩

/-- Two instances, and 5001 instances. -/
example : (∃ s, init Ex.stats [Ex.inst 0 {} {} 0, Ex.inst 1 {} {} 1] 3 (fun _ _ => Ex.half)
      (fun _ _ => Ex.half) = .ok s ∧ s.getDamageMatrix.length = 2 ∧ s.getRawDamage.length = 3) ∧
    init Ex.stats (List.replicate 5001 (Ex.inst 0 {} {} 0)) 3 (fun _ _ => Ex.half) (fun _ _ => Ex.half) =
      .error .indexError := by
  constructor
  · refine C49_succeeds_partial ?_ (by simp) (by simp) _ _ _
    intro x hx
    simp only [List.mem_cons, List.not_mem_nil, or_false] at hx
    rcases hx with rfl | rfl <;> exact Ex.inst_computable _ _
  · refine (C49_refuted _ _ _).2 _ ?_ (by rw [List.length_replicate]; norm_num)
    intro x hx
    rw [List.eq_of_mem_replicate hx]
    exact Ex.inst_computable _ _

/-! ## C59: sampled totals -/

/-- C59.  The total of every sample is the sum of the damage of that sample over the instances. -/
theorem C59_totals (h : init stats l n wr ws = .ok s) :
    s.getRawDamage.length = n ∧ s.getDamageMatrix.length = l.length ∧
    (∀ row ∈ s.getDamageMatrix, row.length = n) ∧
    ∀ j < n, ∃ xs : List (ℚ × Bool × Bool), s.getDamageMatrix.map (fun row => row[j]?) = xs.map some ∧
      s.getRawDamage[j]? = some (xs.map (·.1)).sum := by
  have b := built h
  have hrow : ∀ row ∈ s.getDamageMatrix, row.length = n := by
    intro row hr
    unfold getDamageMatrix at hr
    rw [b.matrix] at hr
    obtain ⟨i, hi, rfl⟩ := List.mem_mapIdx.1 hr
    simp
  refine ⟨?_, ?_, hrow, fun j hj => ?_⟩
  · unfold getRawDamage
    rw [b.sums]
    simp [sampleSums]
  · unfold getDamageMatrix
    rw [b.matrix, List.length_mapIdx, b.length, b.perm.length_eq]
  · have key : ∀ m : List (List (ℚ × Bool × Bool)), (∀ row ∈ m, row.length = n) →
        ∃ xs : List (ℚ × Bool × Bool), m.map (fun row => row[j]?) = xs.map some ∧
          (m.map fun row => (row[j]?.map (·.1)).getD 0).sum = (xs.map (·.1)).sum := by
      intro m
      induction m with
      | nil => exact fun _ => ⟨[], rfl, rfl⟩
      | cons row m ih =>
        intro hm
        obtain ⟨xs, h1, h2⟩ := ih fun r hr => hm r (by simp [hr])
        have hl := hm row (by simp)
        refine ⟨row[j] :: xs, ?_, ?_⟩
        · simp only [List.map_cons, h1]
          rw [List.getElem?_eq_getElem]
        · simp only [List.map_cons, List.sum_cons, h2]
          rw [List.getElem?_eq_getElem (by omega)]
          rfl
    obtain ⟨xs, h1, h2⟩ := key s.getDamageMatrix hrow
    refine ⟨xs, h1, ?_⟩
    unfold getRawDamage
    rw [b.sums]
    unfold sampleSums
    rw [List.getElem?_map, List.getElem?_range hj]
    exact congrArg some h2

/-- C59.  The damage per second of a sample is its total divided by the time in seconds between the first and
the last instance, and infinite if there is no time between them. -/
theorem C59_dps (h : init stats l n wr ws = .ok s) {first last : DamageInstance} (hf : first ∈ l)
    (hl : last ∈ l) (hb : ∀ x ∈ l, first.time ≤ x.time ∧ x.time ≤ last.time) {j : ℕ} {x : ℚ}
    (hx : s.getRawDamage[j]? = some x) :
    (first.time < last.time →
      s.getDps[j]? = some ((x / ((last.time - first.time) / 1000) : ℚ) : WithTop ℚ)) ∧
    (first.time = last.time → s.getDps[j]? = some ⊤) := by
  have b := built h
  have ht : fightTime s.instances = (last.time - first.time) / 1000 := by
    rw [b.instances]
    exact fightTime_eq hf hl hb
  unfold getDps
  rw [b.dps, ht]
  unfold getRawDamage at hx
  unfold dpsOf
  rw [List.getElem?_map, hx]
  constructor
  · intro h1
    have : 0 < (last.time - first.time) / 1000 := by linarith
    simp only [if_pos this, Option.map_some]
  · intro h1
    have : ¬ 0 < (last.time - first.time) / 1000 := by rw [h1]; simp
    simp only [if_neg this, Option.map_some]

/-- The two instances are two seconds apart. -/
example : Ex.okAnd (init Ex.stats Ex.insts 2 (fun _ _ => Ex.half) (fun i j => ⟨i / 2, j / 2, 1 / 3⟩)) (fun s =>
      decide (s.getRawDamage = [26514, 16490] ∧ s.getDps = [((13257 : ℚ) : WithTop ℚ), ((8245 : ℚ) : WithTop ℚ)]))
      = true := by
  decide +kernel

/-! ## C60: hit rates as probabilities -/

/-- C60, when the added rates do not exceed 1.  Missing: nothing limits the sum (`C60_refuted`).

The rates of an instance are 0 or 1 if forced, and otherwise the rates of the character plus those of the
buffs and debuffs; they are probabilities if those sums are. -/
theorem C60_rates_partial (h : init stats l n wr ws = .ok s) {i : ℕ} {cr dr : ℚ}
    (hr : s.getCritAndDhRates[i]? = some (cr, dr)) :
    ∃ x ∈ l, ∃ d, x.skill.getDamageSpec x.modifier = .ok (some d) ∧
      RateIs (critSources d x.modifier (x.buffs, x.debuffs))
        (stats.processed.critRate + x.buffs.critRateAdd + x.debuffs.critRateAdd) cr ∧
      RateIs (dhSources d x.modifier (x.buffs, x.debuffs))
        (stats.processed.dhRate + x.buffs.dhRateAdd + x.debuffs.dhRateAdd) dr ∧
      (IsProb (stats.processed.critRate + x.buffs.critRateAdd + x.debuffs.critRateAdd) → IsProb cr) ∧
      (IsProb (stats.processed.dhRate + x.buffs.dhRateAdd + x.debuffs.dhRateAdd) → IsProb dr) := by
  have b := built h
  unfold getCritAndDhRates at hr
  rw [List.getElem?_map] at hr
  cases hrow : s.tracker.rows[i]? with
  | none => rw [hrow] at hr; cases hr
  | some r =>
    rw [hrow] at hr
    cases hr
    obtain ⟨x, hx, hrx⟩ := b.row hrow
    obtain ⟨ba, dh, c, bo, d, h1, h2, h3, rfl⟩ := rowOf_ok hrx
    have hrates := C43_rates h3 h2
    have key : ∀ {ls : List Forced} {a p : ℚ}, RateIs ls a p → IsProb a → IsProb p := by
      intro ls a p hr ha
      by_cases hy : Forced.forceYes ∈ ls
      · rw [hr.1 hy]; exact ⟨zero_le_one, le_rfl⟩
      · by_cases hn : Forced.forceNo ∈ ls
        · rw [hr.2.1 hn]; exact ⟨le_rfl, zero_le_one⟩
        · rw [hr.2.2 hy hn]; exact ha
    exact ⟨x, b.perm.mem_iff.1 (List.mem_of_getElem? hx), d, h3, hrates.2.1, hrates.1, key hrates.2.1,
      key hrates.1⟩

/-- C60 is false of the code: with two buffs of 60% critical hit rate the rate is above 1; one outcome has a
negative probability, and the variance of the damage is not a number. -/
theorem C60_refuted : ∃ (raw : RawStats) (stats : Stats) (l : List DamageInstance) (s : DamageSimulator)
    (cr dr : ℚ) (rs : List (String × List OutcomeRange)), mkStats raw = .ok stats ∧
    (∀ x ∈ l, x.buffs.critRateAdd = 3 / 5 ∧ x.debuffs.critRateAdd = 3 / 5) ∧
    init stats l 1 (fun _ _ => Ex.half) (fun _ _ => Ex.half) = .ok s ∧
    s.getCritAndDhRates[0]? = some (cr, dr) ∧ 1 < cr ∧
    s.getDamageRanges (fun _ _ => Ex.half) = .ok rs ∧ (∃ p ∈ rs, ∃ o ∈ p.2, o.probability < 0) ∧
    s.getVariancePerInstance = [none] ∧ s.getDamageVariance = none := by
  have h : Ex.okAnd (init Ex.stats [Ex.inst 0 { critRateAdd := 3 / 5 } { critRateAdd := 3 / 5 } 0] 1
      (fun _ _ => Ex.half) (fun _ _ => Ex.half)) (fun s =>
      Ex.okAnd (s.getDamageRanges fun _ _ => Ex.half) fun rs =>
        decide (s.getCritAndDhRates[0]? = some (729 / 500, 253 / 1000) ∧
          (∃ p ∈ rs, ∃ o ∈ p.2, o.probability < 0) ∧
          s.getVariancePerInstance = [none] ∧ s.getDamageVariance = none)) = true := by
    decide +kernel
  obtain ⟨s, h1, h⟩ := Ex.ok_of h
  obtain ⟨rs, h2, h⟩ := Ex.ok_of h
  obtain ⟨h3, h4, h5, h6⟩ := of_decide_eq_true h
  exact ⟨Ex.rawStats, Ex.stats, _, s, _, _, rs, by decide +kernel, by simp [Ex.inst], h1, h3, by norm_num, h2, h4,
    h5, h6⟩

/-! ## C61: frequencies of the outcomes -/

/-- C61.  A hit with rate `p` happens for `p * n` of `n` evenly spaced draws, up to one draw; so the two
statuses of a sample agree with the reported probability of the outcome for all but `2 / n` of the `n * n`
evenly spaced pairs of draws. -/
theorem C61_frequency {base bonus cr dr trait mult range : ℚ} (hc : IsProb cr) (hd : IsProb dr)
    {n : ℕ} (hn : 0 < n) (spread : ℚ) (crit dh : Bool) :
    |(((List.range n ×ˢ List.range n).filter fun p =>
        decide ((getDamage base bonus cr dr trait mult range ⟨spread, p.1 / n, p.2 / n⟩).2 = (crit, dh))).length
          : ℚ) / (n * n) - probOf crit cr * probOf dh dr| ≤ 2 / n := by
  simp only [getDamage_eq, Prod.mk.injEq]
  exact grid_frequency hc hd hn crit dh

/-- A rate of 1/3 and ten draws: 4 of 10 are hits. -/
example : IsProb (1 / 3) ∧ ((List.range 10).filter fun k : ℕ =>
      (getDamage 1000 (1 / 2) (1 / 3) 0 1 1 (1 / 10) ⟨0, k / 10, 1 / 2⟩).2.1).length = 4 :=
  ⟨by norm_num [IsProb], by decide +kernel⟩

/-! ## C62: the report per instance -/

/-- C62.  Without a rotation, the report per instance lists every damage instance exactly once, in time order,
with its time, skill name, condition, status effects, event id and target, and the expected damages and
variances in the same order. -/
theorem C62_report (h : init stats l n wr ws = .ok s) :
    s.getPerSkillDamage.Pairwise (fun p q => p.applicationTime ≤ q.applicationTime) ∧
    (s.getPerSkillDamage.map fun p =>
      (p.applicationTime, p.skillName, p.withCondition, p.statusEffects, p.eventId, p.target)).Perm
      (l.map fun x =>
        (x.time, x.skill.name, x.modifier.withCondition, (x.buffs, x.debuffs), x.eventId, x.target)) ∧
    s.getPerSkillDamage.map (·.eventId) = s.getEventIds ∧
    s.getPerSkillDamage.map (·.applicationTime) = s.getDamageTime ∧
    s.getPerSkillDamage.map (·.expectedDamage) = s.getExpectedDamagePerInstance ∧
    s.getPerSkillDamage.map (·.variance) = s.getVariancePerInstance ∧
    (∀ p ∈ s.getPerSkillDamage, p.snapshotTime = none ∧ ∃ x ∈ l, ∃ d, p.eventId = x.eventId ∧
      x.skill.getDamageSpec x.modifier = .ok (some d) ∧ p.potency = d.potency ∧
      p.damageClass = d.damageClass) :=
  report_spec (built h)

/-- The report of the two instances. -/
example : Ex.okAnd (init Ex.stats Ex.insts 1 (fun _ _ => Ex.half) (fun _ _ => Ex.half)) (fun s =>
      decide (s.getPerSkillDamage.map (fun p => (p.applicationTime, p.skillName, p.potency, p.eventId)) =
        [(0, "Hit", 300, 0), (2000, "Hit", 300, 1)])) = true := by
  decide +kernel

theorem snapshotDict_get? {q : List Event} {id : ℕ} {x : ℚ × String}
    (h : (snapshotDict q).get? id = some x) :
    ∃ e ∈ q, e.eventId = id ∧ e.primary = x.1 ∧ e.skill.name = x.2 := by
  have key : ∀ (q : List Event) (d : Dict ℕ (ℚ × String)),
      (q.foldl (fun d e => d.set e.eventId (e.primary, e.skill.name)) d).get? id = some x →
      d.get? id = some x ∨ ∃ e ∈ q, e.eventId = id ∧ e.primary = x.1 ∧ e.skill.name = x.2 := by
    intro q
    induction q with
    | nil => exact fun d h => Or.inl h
    | cons e q ih =>
      intro d h
      rcases ih _ h with h | ⟨e', he', h'⟩
      · rw [Dict.get?_set] at h
        split_ifs at h with hid
        · cases h
          exact Or.inr ⟨e, by simp, hid, rfl, rfl⟩
        · exact Or.inl h
      · exact Or.inr ⟨e', by simp [he'], h'⟩
  rcases key q [] h with h | h
  · simp [Dict.get?] at h
  · exact h

theorem addSnapshots {q : List Event} {l res : List PerInstanceDamage}
    (h : l.mapM (addSnapshot (snapshotDict q)) = .ok res) :
    List.Forall₂ (fun p p' => ∃ e ∈ q, e.eventId = p.eventId ∧ e.skill.name = p.skillName ∧
      p' = { p with snapshotTime := some e.primary }) l res := by
  induction l generalizing res with
  | nil =>
    cases h
    exact .nil
  | cons p l ih =>
    rw [List.mapM_cons] at h
    obtain ⟨p', h3, h2⟩ := Py.bind_eq_ok.1 h
    obtain ⟨l', h4, h2⟩ := Py.bind_eq_ok.1 h2
    cases h2
    refine .cons ?_ (ih h4)
    unfold addSnapshot at h3
    split at h3
    · cases h3
    · rename_i t name hd
      split_ifs at h3 with hn
      cases h3
      obtain ⟨e, he, h5, h6, h7⟩ := snapshotDict_get? hd
      exact ⟨e, he, h5, h7.trans hn.symm, by rw [h6]⟩

/-- C62.  With a rotation, the report is the same list in the same order, and each entry also tells the
snapshot time of the event it comes from: an event of that rotation's timeline with the same id and skill. -/
theorem C62_snapshots {fuel : ℕ} {rb rb' : RotationBuilder} {res : List PerInstanceDamage}
    (h : s.getPerSkillDamageWith fuel rb = .ok (res, rb')) :
    rb.getSkillTiming fuel = .ok rb' ∧
    List.Forall₂ (fun p p' => ∃ e ∈ rb'.events.q, e.eventId = p.eventId ∧ e.skill.name = p.skillName ∧
      p' = { p with snapshotTime := some e.primary }) s.getPerSkillDamage res := by
  unfold getPerSkillDamageWith at h
  obtain ⟨rb1, h1, h⟩ := Py.bind_eq_ok.1 h
  obtain ⟨res1, h2, h⟩ := Py.bind_eq_ok.1 h
  cases h
  exact ⟨h1, addSnapshots h2⟩

/-- Two hits land at 0 and 3000 and were snapshot half a second earlier. -/
example : Ex.okAnd (do
      let s ← init Ex.stats [Ex.inst 3000 {} {} 1, Ex.inst 0 {} {} 0] 1 (fun _ _ => Ex.half) (fun _ _ => Ex.half)
      s.getPerSkillDamageWith 100 (← Ex.calls Ex.start [Ex.at_ 1 "Hit", Ex.at_ 4 "Hit"])) (fun r =>
      decide (r.1.map (fun p => (p.applicationTime, p.snapshotTime, p.eventId)) =
        [(0, some (-500), 0), (3000, some 2500, 1)])) = true := by
  decide +kernel

end

end Ama
