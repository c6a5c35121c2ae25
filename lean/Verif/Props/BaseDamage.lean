import Verif.Lemmas.BaseDamage
import Verif.Examples.Rotation

/-!
# Base damage and hit rates (C41-C43)
-/

namespace Ama

open Spec ComputeDamage

/-! ## C41: base damage is at least 1, or the potency is zero -/

/-- C41.  A skill that does no damage has no base damage. -/
theorem C41_no_damage {skill : Skill} {m : SkillModifier} (h : skill.getDamageSpec m = .ok none)
    (stats : Stats) (se : StatusEffects × StatusEffects) :
    getBaseDamage skill m stats se = .ok none := by
  unfold getBaseDamage
  rw [h]
  rfl

/-- C41.  Potency 0 always gives base damage 0; any other base damage is at least 1. -/
theorem C41_base {skill : Skill} {m : SkillModifier} {d : DamageSpec}
    (h : skill.getDamageSpec m = .ok (some d)) (stats : Stats) (se : StatusEffects × StatusEffects) :
    (d.potency = 0 → getBaseDamage skill m stats se = .ok (some 0)) ∧
    ∀ x, getBaseDamage skill m stats se = .ok x →
      ∃ b, x = some b ∧ (d.potency = 0 ∧ b = 0 ∨ d.potency ≠ 0 ∧ 1 ≤ b) := by
  have e : getBaseDamage skill m stats se = if d.potency = 0 then pure (some 0) else (do
      let base ← byClass d.damageClass skill m stats se
      pure (some (max base 1))) := by
    unfold getBaseDamage
    rw [h]
    rfl
  rw [e]
  constructor
  · intro h0
    rw [if_pos h0]
    rfl
  · intro x hx
    split_ifs at hx with h0
    · cases hx
      exact ⟨0, rfl, .inl ⟨h0, rfl⟩⟩
    · obtain ⟨b, -, hx⟩ := Py.bind_eq_ok.1 hx
      cases hx
      exact ⟨_, rfl, .inr ⟨h0, le_max_right _ _⟩⟩

/-- A potency of 300 and a potency of one hundredth. -/
example : Ex.hit.getDamageSpec {} = .ok (some { potency := 300 }) ∧
    getBaseDamage Ex.hit {} Ex.stats ({}, {}) = .ok (some 8064) ∧
    getBaseDamage { Ex.hit with damageSpec := .single (some { potency := 1 / 100 }) } {} Ex.stats
      ({}, {}) = .ok (some 1) ∧
    getBaseDamage { Ex.hit with damageSpec := .single (some { potency := 0 }) } {} Ex.stats
      ({}, {}) = .ok (some 0) :=
  ⟨rfl, by decide +kernel, by decide +kernel, by decide +kernel⟩

/-! ## C42: more potency or more stats never hurt -/

/-- C42.  Of two characters of the same job, level and version, and two skills that differ in
potency only, under the same buffs and debuffs: neither weaker stats, fewer roles in the party nor a lower
potency give more base damage.  This holds for every damage class. -/
theorem C42_monotone {raw raw' : RawStats} (hr : NoStronger raw raw') {stats stats' : Stats}
    (hs : mkStats raw = .ok stats) (hs' : mkStats raw' = .ok stats')
    {skill skill' : Skill} {m : SkillModifier} {d : DamageSpec} {potency' : ℚ}
    (hd : skill.getDamageSpec m = .ok (some d))
    (hd' : skill'.getDamageSpec m = .ok (some { d with potency := potency' }))
    (hp : 0 ≤ d.potency ∧ d.potency ≤ potency') (hn : NonNegDamage d)
    {se : StatusEffects × StatusEffects} (h1 : NonNegEffects se.1) (h2 : NonNegEffects se.2)
    {b b' : ℚ} (hb : getBaseDamage skill m stats se = .ok (some b))
    (hb' : getBaseDamage skill' m stats' se = .ok (some b')) : b ≤ b' := by
  by_cases h0 : d.potency = 0
  · rw [(C41_base hd stats se).1 h0] at hb
    cases hb
    obtain ⟨_, hx, h⟩ := (C41_base hd' stats' se).2 _ hb'
    cases hx
    rcases h with ⟨-, h⟩ | ⟨-, h⟩
    · rw [h]
    · linarith
  · have h0' : potency' ≠ 0 := by
      intro h
      exact h0 (le_antisymm (h ▸ hp.2) hp.1)
    unfold getBaseDamage at hb hb'
    rw [hd] at hb
    rw [hd'] at hb'
    simp only [Py.ok_bind, h0, if_false] at hb
    simp only [Py.ok_bind, h0', if_false] at hb'
    obtain ⟨x, hx, hb⟩ := Py.bind_eq_ok.1 hb
    obtain ⟨y, hy, hb'⟩ := Py.bind_eq_ok.1 hb'
    cases hb
    cases hb'
    have key : x ≤ max y 0 :=
      byClass_le d.damageClass (statsLe_of hr hs hs') hd hd' hp.1 hp.2 hn (.refl _ h1 h2) hx hy
    refine max_le (key.trans (max_le_max (le_refl _) (by norm_num))) (le_max_right _ _)

/-- A tank's auto attack; every stat and the potency grow. -/
def Ex.tank (main wd det ten : ℚ) : RawStats :=
  { Ex.rawStats with jobClass := "test_tank_job", mainStat := main, wd := wd, detStat := det,
                     tenacity := some ten }

def Ex.critAuto (potency : ℚ) : Skill :=
  { name := "Auto"
    damageSpec := .single (some { potency := potency, damageClass := .auto, guaranteedCrit := .forceYes }) }

example : NoStronger (Ex.tank 2000 120 1000 500) (Ex.tank 2100 126 1200 600) ∧
    NonNegDamage { potency := 90, damageClass := .auto, guaranteedCrit := .forceYes } ∧
    NonNegEffects { critRateAdd := 1 / 10 } ∧
    Ex.okAnd (mkStats (Ex.tank 2000 120 1000 500)) (fun s => Ex.okAnd
      (getBaseDamage (Ex.critAuto 90) {} s ({ critRateAdd := 1 / 10 }, {})) (· = some 1463)) = true ∧
    Ex.okAnd (mkStats (Ex.tank 2100 126 1200 600)) (fun s => Ex.okAnd
      (getBaseDamage (Ex.critAuto 100) {} s ({ critRateAdd := 1 / 10 }, {})) (· = some 1813)) = true := by
  refine ⟨⟨rfl, rfl, rfl, by decide +kernel, by decide +kernel, by decide +kernel, by decide +kernel,
    by decide +kernel, by decide +kernel, by decide +kernel, .inr ⟨_, _, rfl, rfl, by decide +kernel⟩,
    .inr ⟨_, _, rfl, rfl, by decide +kernel⟩, .inl ⟨rfl, rfl⟩⟩, ⟨by decide +kernel, by decide +kernel, ?_⟩,
    by unfold NonNegEffects; decide +kernel, by decide +kernel, by decide +kernel⟩
  intro x h
  cases h

/-- Fewer roles in the party, and all else the same. -/
example : NoStronger { Ex.tank 2000 120 1000 500 with numRolesInParty := 3 } (Ex.tank 2000 120 1000 500) ∧
    Ex.okAnd (mkStats { Ex.tank 2000 120 1000 500 with numRolesInParty := 3 }) (fun s => Ex.okAnd
      (getBaseDamage (Ex.critAuto 90) {} s ({ critRateAdd := 1 / 10 }, {})) (· = some 1434)) = true ∧
    Ex.okAnd (mkStats (Ex.tank 2000 120 1000 500)) (fun s => Ex.okAnd
      (getBaseDamage (Ex.critAuto 90) {} s ({ critRateAdd := 1 / 10 }, {})) (· = some 1463)) = true := by
  refine ⟨⟨rfl, rfl, rfl, by decide +kernel, by decide +kernel, by decide +kernel, by decide +kernel,
    by decide +kernel, by decide +kernel, by decide +kernel, .inr ⟨_, _, rfl, rfl, by decide +kernel⟩,
    .inr ⟨_, _, rfl, rfl, by decide +kernel⟩, .inl ⟨rfl, rfl⟩⟩, by decide +kernel, by decide +kernel⟩

/-! ## C43: forced and forbidden hits -/

theorem dhFlag_iff {f : Forced} {d : DamageSpec} {m : SkillModifier}
    {se : StatusEffects × StatusEffects} : dhFlag f d m se = true ↔ f ∈ dhSources d m se := by
  unfold dhFlag dhSources
  simp only [Bool.or_eq_true, decide_eq_true_eq, List.mem_cons, List.not_mem_nil, or_false, or_assoc]
  simp only [eq_comm]

theorem critFlag_iff {f : Forced} {d : DamageSpec} {m : SkillModifier}
    {se : StatusEffects × StatusEffects} : critFlag f d m se = true ↔ f ∈ critSources d m se := by
  unfold critFlag critSources
  simp only [Bool.or_eq_true, decide_eq_true_eq, List.mem_cons, List.not_mem_nil, or_false, or_assoc]
  simp only [eq_comm]

/-- C43.  Contradicting flags, and only those, are rejected. -/
theorem C43_conflicts {skill : Skill} {m : SkillModifier} {d : DamageSpec}
    (h : skill.getDamageSpec m = .ok (some d)) (stats : Stats) (se : StatusEffects × StatusEffects) :
    (Conflict (dhSources d m se) ∨ Conflict (critSources d m se) →
      critRatesAndBonuses stats skill m se = .error .runtimeError) ∧
    (¬ Conflict (dhSources d m se) → ¬ Conflict (critSources d m se) →
      ∃ r, critRatesAndBonuses stats skill m se = .ok r) := by
  unfold critRatesAndBonuses Conflict
  simp only [specOf_ok h, Py.ok_bind, Bool.and_eq_true, dhFlag_iff, critFlag_iff]
  constructor
  · rintro (hc | hc)
    · rw [if_pos hc]
    · rw [if_pos hc]
      split_ifs <;> rfl
  · intro h1 h2
    rw [if_neg h1, if_neg h2]
    exact ⟨_, rfl⟩

/-- C43.  The rates: 1 if forced, 0 if forbidden, otherwise the rate of the character plus the bonuses of
buffs and debuffs. -/
theorem C43_rates {skill : Skill} {m : SkillModifier} {d : DamageSpec}
    (h : skill.getDamageSpec m = .ok (some d)) {stats : Stats} {se : StatusEffects × StatusEffects}
    {dh crit bonus : ℚ} (hr : critRatesAndBonuses stats skill m se = .ok (dh, crit, bonus)) :
    RateIs (dhSources d m se) (stats.processed.dhRate + se.1.dhRateAdd + se.2.dhRateAdd) dh ∧
    RateIs (critSources d m se) (stats.processed.critRate + se.1.critRateAdd + se.2.critRateAdd) crit ∧
    bonus = stats.processed.critBonus := by
  unfold critRatesAndBonuses at hr
  simp only [specOf_ok h, Py.ok_bind, Bool.and_eq_true, dhFlag_iff, critFlag_iff] at hr
  split_ifs at hr with h1 h2
  cases hr
  unfold dhRate critRate
  simp only [dhFlag_iff, critFlag_iff]
  refine ⟨⟨fun hy => if_pos hy, fun hn => ?_, fun hy hn => ?_⟩,
    ⟨fun hy => if_pos hy, fun hn => ?_, fun hy hn => ?_⟩, trivial⟩
  · rw [if_neg (fun hy => h1 ⟨hy, hn⟩), if_pos hn]
  · rw [if_neg hy, if_neg hn]
  · rw [if_neg (fun hy => h2 ⟨hy, hn⟩), if_pos hn]
  · rw [if_neg hy, if_neg hn]

/-- A forced critical hit by the skill, direct hits forbidden by the modifier; and a contradiction. -/
example : critRatesAndBonuses Ex.stats (Ex.critAuto 90) { guaranteedDh := .forceNo } ({}, {}) =
      .ok (0, 1, 608 / 1000) ∧
    critRatesAndBonuses Ex.stats Ex.hit {} ({ critRateAdd := 1 / 10 }, { dhRateAdd := 1 / 5 }) =
      .ok (453 / 1000, 358 / 1000, 608 / 1000) ∧
    critRatesAndBonuses Ex.stats (Ex.critAuto 90) {} ({}, { guaranteedCrit := .forceNo }) =
      .error .runtimeError := by
  refine ⟨?_, ?_, ?_⟩ <;> decide +kernel

end Ama
