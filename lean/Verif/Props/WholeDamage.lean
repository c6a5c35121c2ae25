import Verif.Props.GearShipped
import Verif.Props.HitDamage

/-!
# C113: simulated damage is a whole number of points
-/

namespace Ama

open Spec GameData DamageTracker DamageSimulator Formulas

section

variable {raw : RawStats} {stats : Stats} {l : List DamageInstance} {n : ℕ} {wr ws : ℕ → ℕ → Draw}
  {s : DamageSimulator}

/-- C113.  Every sample of every hit is a whole number, not negative, and zero if the hit has no potency. -/
theorem C113_hits (hs : mkStats raw = .ok stats) (hc : 0 ≤ raw.critStat) (hm : ∀ x ∈ l, NonNegMults x)
    (h : init stats l n wr ws = .ok s) (hw : ∀ i j, Draw.Valid (ws i j)) {i j : ℕ}
    {row : List (ℚ × Bool × Bool)} {damage : ℚ} {crit dh : Bool} (hi : s.getDamageMatrix[i]? = some row)
    (hj : row[j]? = some (damage, crit, dh)) :
    ∃ x d points, s.instances[i]? = some x ∧ x.skill.getDamageSpec x.modifier = .ok (some d) ∧
      damage = (points : ℕ) ∧ (d.potency = 0 → points = 0) := by
  have b := built h
  unfold getDamageMatrix at hi
  rw [b.matrix, List.getElem?_mapIdx] at hi
  cases hrow : s.tracker.rows[i]? with
  | none => rw [hrow] at hi; cases hi
  | some r =>
    rw [hrow] at hi
    cases hi
    rw [List.getElem?_map] at hj
    cases hjj : (List.range n)[j]? with
    | none => rw [hjj] at hj; cases hj
    | some j' =>
      rw [hjj] at hj
      obtain ⟨x, hx, hrx⟩ := b.row hrow
      have sane := sane_of hs hc (hm x (b.perm.mem_iff.1 (List.mem_of_getElem? hx))) hrx
      have e := Option.some.inj hj
      beta_reduce at e
      rw [getDamage_eq] at e
      simp only [Prod.mk.injEq] at e
      obtain ⟨e1, -, -⟩ := e
      have hsp : 0 ≤ r.baseDamage * ((1 - 1 / 10 / 2) + 1 / 10 * (ws i j').spread) := by
        have := (hw i j').1.1
        exact mul_nonneg sane.base (by linarith)
      have hfl : 0 ≤ npFloor (r.baseDamage * ((1 - 1 / 10 / 2) + 1 / 10 * (ws i j').spread)) := by
        unfold npFloor
        exact_mod_cast Int.floor_nonneg.2 hsp
      have h0 := afterSpread_nonneg (c := decide ((ws i j').crit ≤ r.critRate))
        (d := decide ((ws i j').dh ≤ r.dhRate)) sane.bonus sane.trait sane.mult hfl
      rw [e1] at h0
      obtain ⟨z, hz⟩ : ∃ z : ℤ, damage = z := ⟨_, e1.symm⟩
      obtain ⟨bs, dr, cr, bo, d, h1, h2, h3, hr⟩ := rowOf_ok hrx
      have hz0 : 0 ≤ z := by rw [hz] at h0; exact_mod_cast h0
      refine ⟨x, d, z.toNat, hx, h3, ?_, fun hd => ?_⟩
      · rw [hz]
        exact_mod_cast (Int.toNat_of_nonneg hz0).symm
      · have hb : r.baseDamage = 0 := by
          unfold ComputeDamage.getBaseDamage at h1
          rw [h3, Py.ok_bind] at h1
          simp only [hd] at h1
          rw [hr]
          simp only [if_true, Py.pure_eq] at h1
          cases h1
          rfl
        rw [hb, zero_mul] at e1
        have : damage = 0 := by
          rw [← e1]
          simp [afterSpread, npFloor]
        rw [this] at hz
        have : z = 0 := by exact_mod_cast hz.symm
        simp [this]

/-- C113.  So is every sample of the total damage. -/
theorem C113_totals (hs : mkStats raw = .ok stats) (hc : 0 ≤ raw.critStat) (hm : ∀ x ∈ l, NonNegMults x)
    (h : init stats l n wr ws = .ok s) (hw : ∀ i j, Draw.Valid (ws i j)) :
    ∀ total ∈ s.getRawDamage, ∃ points : ℕ, total = points := by
  intro total ht
  have b := built h
  unfold getRawDamage at ht
  rw [b.sums] at ht
  unfold sampleSums at ht
  obtain ⟨j, hj, rfl⟩ := List.mem_map.1 ht
  have key : ∀ row ∈ s.matrix, ∃ p : ℕ, ((row[j]?.map (·.1)).getD 0) = p := by
    intro row hrow
    obtain ⟨i, hi⟩ := List.mem_iff_getElem?.1 hrow
    cases hj : row[j]? with
    | none => exact ⟨0, by simp⟩
    | some y =>
      obtain ⟨a, c, d⟩ := y
      obtain ⟨-, -, p, -, -, hp, -⟩ := C113_hits hs hc hm h hw hi hj
      exact ⟨p, by simpa using hp⟩
  generalize s.matrix = m at key ⊢
  induction m with
  | nil => exact ⟨0, by simp⟩
  | cons row m ih =>
    obtain ⟨p, hp⟩ := key row (by simp)
    obtain ⟨q, hq⟩ := ih (fun r hr => key r (List.mem_cons_of_mem _ hr))
    exact ⟨p + q, by rw [List.map_cons, List.sum_cons, hp, hq]; push_cast; rfl⟩

theorem floor_ge_one {x : ℚ} (h : 1 ≤ x) : 1 ≤ npFloor x := by
  unfold npFloor
  exact_mod_cast Int.le_floor.2 (by exact_mod_cast h)

/-- C113, in part: a hit deals something.  Missing: hits with a base damage below 2, which can deal nothing though
they have potency (`C113_nothing_refuted`), and multipliers of traits and effects that lower the damage. -/
theorem C113_positive_partial (hs : mkStats raw = .ok stats) (hc : 0 ≤ raw.critStat)
    (hm : ∀ x ∈ l, NonNegMults x) (h : init stats l n wr ws = .ok s) (hw : ∀ i j, Draw.Valid (ws i j)) {i j : ℕ}
    {row : List (ℚ × Bool × Bool)} {damage : ℚ} {crit dh : Bool} (hi : s.getDamageMatrix[i]? = some row)
    (hj : row[j]? = some (damage, crit, dh)) {x : DamageInstance} (hx : s.instances[i]? = some x)
    {base cr bonus dr trait : ℚ} (hn : HitNumbers raw stats x base cr bonus dr trait) (h2 : 2 ≤ base)
    (ht : 1 ≤ trait) (he : 1 ≤ effectMultiplier x) : 1 ≤ damage := by
  have b := built h
  unfold getDamageMatrix at hi
  rw [b.matrix, List.getElem?_mapIdx] at hi
  cases hrow : s.tracker.rows[i]? with
  | none => rw [hrow] at hi; cases hi
  | some r =>
    rw [hrow] at hi
    cases hi
    rw [List.getElem?_map] at hj
    cases hjj : (List.range n)[j]? with
    | none => rw [hjj] at hj; cases hj
    | some j' =>
      rw [hjj] at hj
      obtain ⟨x', hx', hrx⟩ := b.row hrow
      rw [hx] at hx'
      cases hx'
      have sane := sane_of hs hc (hm x (b.perm.mem_iff.1 (List.mem_of_getElem? hx))) hrx
      obtain ⟨N, hmult⟩ := hitNumbers_of hs hrx
      have e := Option.some.inj hj
      beta_reduce at e
      rw [getDamage_eq] at e
      simp only [Prod.mk.injEq] at e
      obtain ⟨e1, -, -⟩ := e
      have q1 : r.baseDamage = base := by
        have := N.base.symm.trans hn.base
        cases this
        rfl
      have q2 : r.traitDamageMult = trait := by
        obtain ⟨d, g1, g2⟩ := N.trait
        obtain ⟨d', g1', g2'⟩ := hn.trait
        rw [g1] at g1'
        cases g1'
        rw [g2, g2']
      have hsp : 1 ≤ r.baseDamage * ((1 - 1 / 10 / 2) + 1 / 10 * (ws i j').spread) := by
        have := (hw i j').1.1
        rw [q1]
        nlinarith
      have f1 := floor_ge_one hsp
      rw [← e1]
      unfold afterSpread
      simp only
      generalize npFloor (r.baseDamage * ((1 - 1 / 10 / 2) + 1 / 10 * (ws i j').spread)) = t at f1
      have fl : ∀ {y : ℚ}, 0 ≤ y → 0 ≤ npFloor y := fun {y} hy => by
        unfold npFloor
        exact_mod_cast Int.floor_nonneg.2 hy
      have f2 : 1 ≤ t + npFloor (t * (r.critBonus * boolNum (decide ((ws i j').crit ≤ r.critRate)))) := by
        have := fl (mul_nonneg (zero_le_one.trans f1) (mul_nonneg sane.bonus
          (boolNum_nonneg (decide ((ws i j').crit ≤ r.critRate)))))
        linarith
      generalize t + npFloor (t * (r.critBonus * boolNum (decide ((ws i j').crit ≤ r.critRate)))) = u at f2
      have f3 : 1 ≤ u + npFloor (u * (GameConsts.DH_DAMAGE_MULT_BONUS *
          boolNum (decide ((ws i j').dh ≤ r.dhRate)))) := by
        have := fl (mul_nonneg (zero_le_one.trans f2) (mul_nonneg
          (show (0 : ℚ) ≤ GameConsts.DH_DAMAGE_MULT_BONUS by norm_num [GameConsts.DH_DAMAGE_MULT_BONUS])
          (boolNum_nonneg (decide ((ws i j').dh ≤ r.dhRate)))))
        linarith
      generalize u + npFloor (u * (GameConsts.DH_DAMAGE_MULT_BONUS *
          boolNum (decide ((ws i j').dh ≤ r.dhRate)))) = v at f3
      rw [q2, hmult]
      exact floor_ge_one (one_le_mul_of_one_le_of_one_le
        (floor_ge_one (one_le_mul_of_one_le_of_one_le f3 ht)) he)

variable {version : String} {level : ℕ} {lib : SkillLibrary} {snapDots : Option ℚ}
  {autos trailing : Bool} {fightStart : Option ℚ} {downtime : RawDowntime} {target : String}
  {ops : List BuilderOp} {fuel : ℕ}

/-- C113 for shipped skills, without a condition on the hits: whatever rotation is played, every sample of every
hit and of the total damage is a whole number and not negative, and zero for a hit without potency. -/
theorem C113_shipped (hk : createSkillLibrary version level = .ok lib)
    (hl : playedHits stats lib snapDots autos trailing fightStart downtime target ops fuel = .ok l)
    (hs : mkStats raw = .ok stats) (hc : 0 ≤ raw.critStat) (h : init stats l n wr ws = .ok s)
    (hw : ∀ i j, Draw.Valid (ws i j)) :
    (∀ (i j : ℕ) row damage crit dh, s.getDamageMatrix[i]? = some row → row[j]? = some (damage, crit, dh) →
      ∃ x d points, s.instances[i]? = some x ∧ x.skill.getDamageSpec x.modifier = .ok (some d) ∧
        damage = (points : ℕ) ∧ (d.potency = 0 → points = 0)) ∧
    ∀ total ∈ s.getRawDamage, ∃ points : ℕ, total = points := by
  have hm : ∀ x ∈ l, NonNegMults x := fun x hx => (C112_shipped_sane hk hl x hx).mults
  exact ⟨fun i j row damage crit dh hi hj => C113_hits hs hc hm h hw hi hj, C113_totals hs hc hm h hw⟩

/-- C113 for shipped skills, in part: no combination of effects makes a hit deal nothing.  Missing: hits with a base
damage below 2 (`C113_nothing_refuted`) and skills that override the multiplier of traits with less than 1. -/
theorem C113_shipped_positive_partial (hk : createSkillLibrary version level = .ok lib)
    (hl : playedHits stats lib snapDots autos trailing fightStart downtime target ops fuel = .ok l)
    (hs : mkStats raw = .ok stats) (hc : 0 ≤ raw.critStat) (h : init stats l n wr ws = .ok s)
    (hw : ∀ i j, Draw.Valid (ws i j)) {i j : ℕ} {row : List (ℚ × Bool × Bool)} {damage : ℚ} {crit dh : Bool}
    (hi : s.getDamageMatrix[i]? = some row) (hj : row[j]? = some (damage, crit, dh)) {x : DamageInstance}
    (hx : s.instances[i]? = some x) {base cr bonus dr trait : ℚ}
    (hn : HitNumbers raw stats x base cr bonus dr trait) (h2 : 2 ≤ base)
    (ht : ∀ d t, x.skill.getDamageSpec x.modifier = .ok (some d) → d.traitDamageMultOverride = some t → 1 ≤ t) :
    1 ≤ damage := by
  have hm := Shipped.saneHits hk hl
  refine C113_positive_partial hs hc (fun x hx => (hm x hx).1.mults) h hw hi hj hx hn h2 ?_
    (hm x ((built h).perm.mem_iff.1 (List.mem_of_getElem? hx))).2
  obtain ⟨d, g1, g2⟩ := hn.trait
  rw [g2]
  cases ho : d.traitDamageMultOverride with
  | some t => exact ht d t g1 ho
  | none =>
    simp only [Option.getD_none]
    unfold traitMultiplier
    split_ifs <;> norm_num

end

namespace Ex

/-- A character without a weapon and with base stats. -/
def weak : RawStats :=
  { rawStats with wd := 0, mainStat := 390, detStat := 390, critStat := 400, dhStat := 400 }

/-- A hit with little potency. -/
def tap : DamageInstance :=
  { inst 0 {} {} 0 with skill := { hit with damageSpec := .single (some { potency := 3 }) } }

/-- A hit with none. -/
def miss : DamageInstance :=
  { inst 1000 {} {} 1 with skill := { hit with damageSpec := .single (some { potency := 0 }) } }

/-- The lowest spread. -/
def low : Draw := ⟨0, 1 / 2, 1 / 2⟩

end Ex

/-- C113 is false in one direction: a hit with potency, with no effects that lower damage, can deal nothing, because
a base damage of 1 is spread to 0.95 and rounded down. -/
theorem C113_nothing_refuted : ∃ (raw : RawStats) (stats : Stats) (x : DamageInstance) (d : DamageSpec)
    (s : DamageSimulator), mkStats raw = .ok stats ∧ 0 ≤ raw.critStat ∧
    Draw.Valid Ex.low ∧ x.skill.getDamageSpec x.modifier = .ok (some d) ∧ d.potency = 3 ∧
    effectMultiplier x = 1 ∧ init stats [x] 1 (fun _ _ => Ex.half) (fun _ _ => Ex.low) = .ok s ∧
    s.getDamageMatrix = [[(0, false, false)]] ∧ s.getRawDamage = [0] := by
  have h : Ex.okAnd (mkStats Ex.weak) (fun st =>
      Ex.okAnd (init st [Ex.tap] 1 (fun _ _ => Ex.half) (fun _ _ => Ex.low)) (fun s =>
        decide (s.getDamageMatrix = [[(0, false, false)]] ∧ s.getRawDamage = [0]))) = true := by
    decide +kernel
  obtain ⟨st, h1, h⟩ := Ex.ok_of h
  obtain ⟨s, h2, h⟩ := Ex.ok_of h
  obtain ⟨h3, h4⟩ := of_decide_eq_true h
  exact ⟨Ex.weak, st, Ex.tap, { potency := 3 }, s, h1, by norm_num [Ex.weak], by
    norm_num [Draw.Valid, Ex.low], rfl, rfl, by norm_num [effectMultiplier, Ex.tap, Ex.inst], h2, h3, h4⟩

/-- Three hits, one of them without potency. -/
example : mkStats Ex.rawStats = .ok Ex.stats ∧ Draw.Valid Ex.low ∧ (0 : ℚ) ≤ Ex.rawStats.critStat ∧
    Ex.okAnd (init Ex.stats (Ex.miss :: Ex.insts) 1 (fun _ _ => Ex.half) (fun _ _ => Ex.low)) (fun s =>
      decide (s.getDamageMatrix = [[(8426, false, false)], [(0, false, false)], [(7660, false, false)]] ∧
        s.getRawDamage = [16086])) = true :=
  ⟨by decide +kernel, by norm_num [Draw.Valid, Ex.low], by norm_num [Ex.rawStats], by decide +kernel⟩

/-- The numbers of the hits with potency: base damage far above 2, no multiplier below 1. -/
example : (∀ x ∈ Ex.insts, 1 ≤ effectMultiplier x) ∧ Spec.traitMultiplier Ex.rawStats.jobClass = 1 ∧
    Ex.okAnd (init Ex.stats Ex.insts 1 (fun _ _ => Ex.half) (fun _ _ => Ex.low)) (fun s =>
      decide (s.tracker.rows.map (·.baseDamage) = [8064, 8064])) = true := by
  refine ⟨?_, by decide +kernel, by decide +kernel⟩
  intro x hx
  simp only [Ex.insts, List.mem_cons, List.not_mem_nil, or_false] at hx
  rcases hx with rfl | rfl <;> norm_num [effectMultiplier, Ex.inst]

end Ama
