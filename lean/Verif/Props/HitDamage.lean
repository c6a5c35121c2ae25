import Verif.Lemmas.HitDamage
import Verif.Props.Simulation

/-!
# From base damage to damage (C98)
-/

namespace Ama

open Spec DamageTracker DamageSimulator Formulas

variable {raw : RawStats} {stats : Stats} {l : List DamageInstance} {n : ℕ} {wr ws : ℕ → ℕ → Draw}
  {s : DamageSimulator}

/-- C98.  The damage of every sample of every hit is its base damage, spread evenly between 95% and 105%, with the
bonus of critical hits if the number drawn is at most the critical hit rate, and a quarter more for direct hits if
the other number drawn is at most the direct hit rate, times the multipliers of traits, buffs and debuffs: never
more than that, and less only by rounding. -/
theorem C98_sample (hs : mkStats raw = .ok stats) (hc : 0 ≤ raw.critStat) (hm : ∀ x ∈ l, NonNegMults x)
    (h : init stats l n wr ws = .ok s) {i j : ℕ} {row : List (ℚ × Bool × Bool)} {damage : ℚ} {crit dh : Bool}
    (hi : s.getDamageMatrix[i]? = some row) (hj : row[j]? = some (damage, crit, dh)) :
    ∃ x base cr bonus dr trait, s.instances[i]? = some x ∧ HitNumbers raw stats x base cr bonus dr trait ∧
      (crit = true ↔ (ws i j).crit ≤ cr) ∧ (dh = true ↔ (ws i j).dh ≤ dr) ∧
      damage ≤ base * (95 / 100 + (ws i j).spread / 10) * hitMultiplier bonus trait (effectMultiplier x) crit dh ∧
      base * (95 / 100 + (ws i j).spread / 10) * hitMultiplier bonus trait (effectMultiplier x) crit dh -
        hitLoss bonus trait (effectMultiplier x) ≤ damage := by
  have b := built h
  unfold getDamageMatrix at hi
  rw [b.matrix, List.getElem?_mapIdx] at hi
  cases hrow : s.tracker.rows[i]? with
  | none => rw [hrow] at hi; cases hi
  | some r =>
    rw [hrow] at hi
    cases hi
    rw [List.getElem?_map] at hj
    cases hjj : (List.range n)[j]? with
    | none => rw [hjj] at hj; cases hj
    | some j' =>
      rw [hjj] at hj
      have ej : j' = j := by
        obtain ⟨hlt, e⟩ := List.getElem?_eq_some_iff.1 hjj
        rw [List.getElem_range] at e
        exact e.symm
      subst ej
      obtain ⟨x, hx, hrx⟩ := b.row hrow
      have sane := sane_of hs hc (hm x (b.perm.mem_iff.1 (List.mem_of_getElem? hx))) hrx
      obtain ⟨N, hmult⟩ := hitNumbers_of hs hrx
      have e := Option.some.inj hj
      beta_reduce at e
      rw [getDamage_eq] at e
      simp only [Prod.mk.injEq] at e
      obtain ⟨e1, e2, e3⟩ := e
      subst e1 e2 e3
      have k := afterSpread_bounds sane.bonus sane.trait sane.mult
        (r.baseDamage * (1 - 1 / 10 / 2 + 1 / 10 * (ws i j').spread)) (decide ((ws i j').crit ≤ r.critRate))
        (decide ((ws i j').dh ≤ r.dhRate))
      have e4 : r.baseDamage * (95 / 100 + (ws i j').spread / 10) =
        r.baseDamage * (1 - 1 / 10 / 2 + 1 / 10 * (ws i j').spread) := by ring
      refine ⟨x, _, _, _, _, _, hx, N, by simp, by simp, ?_, ?_⟩
      · rw [e4, ← hmult]; exact k.2
      · rw [e4, ← hmult]; exact k.1

/-- C98.  The expected damage of every hit is its base damage, times 1 plus rate times bonus of critical hits, times
1 plus a quarter of the direct hit rate, times the multipliers of traits, buffs and debuffs, up to rounding.  The hit
rates have to be at most 1 (see C60), and no draw made while computing the expected damage is zero (see C47). -/
theorem C98_expected (hs : mkStats raw = .ok stats) (hc : 0 ≤ raw.critStat) (hm : ∀ x ∈ l, NonNegMults x)
    (h : init stats l n wr ws = .ok s) (hw : ∀ i k, Draw.Valid (wr i k) ∧ Draw.Positive (wr i k))
    (hp : ∀ p ∈ s.getCritAndDhRates, IsProb p.1 ∧ IsProb p.2) {i : ℕ} {e : ℚ}
    (hi : s.getExpectedDamagePerInstance[i]? = some e) :
    ∃ x base cr bonus dr trait, s.instances[i]? = some x ∧ HitNumbers raw stats x base cr bonus dr trait ∧
      e ≤ base * meanMultiplier cr bonus dr trait (effectMultiplier x) ∧
      base * meanMultiplier cr bonus dr trait (effectMultiplier x) - hitLoss bonus trait (effectMultiplier x) ≤ e := by
  have b := built h
  unfold getExpectedDamagePerInstance at hi
  rw [b.mean, List.getElem?_mapIdx] at hi
  cases hrow : s.tracker.rows[i]? with
  | none => rw [hrow] at hi; cases hi
  | some r =>
    rw [hrow] at hi
    obtain rfl := Option.some.inj hi
    beta_reduce
    rw [expectedOf_eq (fun k => (hw i k).1) (fun k => (hw i k).2)]
    obtain ⟨x, hx, hrx⟩ := b.row hrow
    have sane := sane_of hs hc (hm x (b.perm.mem_iff.1 (List.mem_of_getElem? hx))) hrx
    obtain ⟨N, hmult⟩ := hitNumbers_of hs hrx
    have prob := hp (r.critRate, r.dhRate) (List.mem_map.2 ⟨r, List.mem_of_getElem? hrow, rfl⟩)
    obtain ⟨k1, k2⟩ := expectedRow_bounds sane prob.1 prob.2
    rw [hmult] at k1 k2
    exact ⟨x, _, _, _, _, _, hx, N, k2, k1⟩

/-- Two hits with base damage 8064, the first with 10% more damage and 20% more critical hits: the damage of a critical
hit of each, the expected damage, and how near the products are. -/
example : mkStats Ex.rawStats = .ok Ex.stats ∧ (∀ x ∈ Ex.insts, NonNegMults x) ∧
    Ex.okAnd (init Ex.stats Ex.insts 2 (fun _ _ => Ex.half) (fun i j => ⟨i / 2, j / 2, 1 / 3⟩)) (fun s =>
      decide (s.getDamageMatrix = [[(13548, true, false), (8426, false, false)],
          [(12966, true, false), (8064, false, false)]] ∧
        s.getExpectedDamagePerInstance = [753508447 / 62500, 9918130787 / 1000000] ∧
        s.instances.map effectMultiplier = [11 / 10, 1] ∧
        8064 * (95 / 100) * hitMultiplier (608 / 1000) 1 (11 / 10) true false - 13548 < 3 ∧
        8064 * meanMultiplier (458 / 1000) (608 / 1000) (253 / 1000) 1 (11 / 10) - 753508447 / 62500 < 5 / 2 ∧
        hitLoss (608 / 1000) 1 (11 / 10) < 7)) = true :=
  ⟨by decide +kernel, Ex.insts_mults, by decide +kernel⟩

/-- The hypotheses about the draws and the rates of `C98_expected` hold there. -/
example : Draw.Valid Ex.half ∧ Draw.Positive Ex.half ∧
    ∀ p ∈ [((229 / 500 : ℚ), (253 / 1000 : ℚ)), (129 / 500, 253 / 1000)], IsProb p.1 ∧ IsProb p.2 := by
  refine ⟨Ex.half_valid, by norm_num [Draw.Positive, Ex.half], ?_⟩
  simp only [List.mem_cons, List.not_mem_nil, or_false, forall_eq_or_imp, forall_eq]
  norm_num [IsProb]

end Ama
