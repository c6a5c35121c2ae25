import Verif.Lemmas.Stronger
import Verif.Props.Simulation

/-!
# Better gear and better buffs (C93)
-/

namespace Ama

open Spec ComputeDamage DamageTracker DamageSimulator

/-- C93.  Of two characters of the same job, level and version, neither weaker stats, nor fewer roles in the
party, nor a lower potency, nor weaker buffs and debuffs give more base damage. -/
theorem C93_base {raw raw' : RawStats} (hr : NoStronger raw raw') (hg : Grown raw) {stats stats' : Stats}
    (hs : mkStats raw = .ok stats) (hs' : mkStats raw' = .ok stats') {x x' : DamageInstance}
    (hx : NoWeakerHit x x') {b b' : ℚ}
    (hb : getBaseDamage x.skill x.modifier stats (x.buffs, x.debuffs) = .ok (some b))
    (hb' : getBaseDamage x'.skill x'.modifier stats' (x'.buffs, x'.debuffs) = .ok (some b')) : b ≤ b' := by
  obtain ⟨d, p', h1, h2, h3, h4, -⟩ := hx.spec
  rw [hx.modifier] at h2 hb'
  exact base_le hr hs hs' h1 h2 h3 h4
    (effectsLe_of (se := (x.buffs, x.debuffs)) (se' := (x'.buffs, x'.debuffs)) hx.buffs hx.debuffs hs hg) hb hb'

section

variable {raw raw' : RawStats} {stats stats' : Stats} {l l' : List DamageInstance} {n : ℕ}
  {wr wr' ws ws' : ℕ → ℕ → Draw} {s s' : DamageSimulator}

/-- C93.  A character that is at least as strong, whose hits are at least as strong, each under buffs and
debuffs that are at least as strong, and that may have more hits, has at least as much expected damage.
The order and the times of the hits do not matter.  The hit rates have to be at most 1 (see C60), and no
draw made while computing the expected damage is zero (see C47). -/
theorem C93_expected (hr : NoStronger raw raw') (hg : Grown raw) (hs : mkStats raw = .ok stats)
    (hs' : mkStats raw' = .ok stats') {l₁ l₂ : List DamageInstance} (hl : List.Forall₂ NoWeakerHit l l₁)
    (hp : l'.Perm (l₁ ++ l₂)) (hm : ∀ x ∈ l₂, NonNegMults x) {n' : ℕ}
    (h : init stats l n wr ws = .ok s) (h' : init stats' l' n' wr' ws' = .ok s')
    (hw : ∀ i k, Draw.Valid (wr i k) ∧ Draw.Positive (wr i k))
    (hw' : ∀ i k, Draw.Valid (wr' i k) ∧ Draw.Positive (wr' i k))
    (hc : ∀ p ∈ s.getCritAndDhRates, IsProb p.1 ∧ IsProb p.2)
    (hc' : ∀ p ∈ s'.getCritAndDhRates, IsProb p.1 ∧ IsProb p.2) :
    s.getExpectedDamage ≤ s'.getExpectedDamage := by
  rw [expected_eq h (fun i k => (hw i k).1) (fun i k => (hw i k).2),
    expected_eq h' (fun i k => (hw' i k).1) (fun i k => (hw' i k).2), (hp.map (expectedInst stats')).sum_eq,
    List.map_append, List.sum_append]
  have prob : ∀ {r}, r ∈ s.tracker.rows → IsProb r.critRate ∧ IsProb r.dhRate := fun hr =>
    hc _ (List.mem_map_of_mem hr)
  have prob' : ∀ {r}, r ∈ s'.tracker.rows → IsProb r.critRate ∧ IsProb r.dhRate := fun hr =>
    hc' _ (List.mem_map_of_mem hr)
  have e1 : (l.map (expectedInst stats)).sum ≤ (l₁.map (expectedInst stats')).sum := by
    refine sum_le_of_forall₂ hl fun x hx x' hx' hxx => ?_
    obtain ⟨r, m, hrow⟩ := row_of_mem h hx
    obtain ⟨r', m', hrow'⟩ := row_of_mem h' (hp.mem_iff.2 (List.mem_append_left _ hx'))
    rw [expectedInst_eq hrow, expectedInst_eq hrow']
    exact expectedRow_le (sane_of hs hr.critStat.1 hxx.mults hrow)
      (rowLe_of hr hg hs hs' hxx hrow hrow') (prob m).1 (prob m).2 (prob' m').1 (prob' m').2
  have e2 : 0 ≤ (l₂.map (expectedInst stats')).sum := by
    refine List.sum_nonneg fun y hy => ?_
    obtain ⟨x, hx, rfl⟩ := List.mem_map.1 hy
    obtain ⟨r, m, hrow⟩ := row_of_mem h' (hp.mem_iff.2 (List.mem_append_right _ hx))
    rw [expectedInst_eq hrow]
    exact expectedRow_nonneg (sane_of hs' (hr.critStat.1.trans hr.critStat.2) (hm x hx) hrow) (prob' m).1
      (prob' m).2
  linarith

/-- C93.  With hits at the same times and the same random numbers, no sample is lower for the stronger
character, neither the damage nor the damage per second. -/
theorem C93_samples (hr : NoStronger raw raw') (hg : Grown raw) (hs : mkStats raw = .ok stats)
    (hs' : mkStats raw' = .ok stats')
    (hl : List.Forall₂ (fun x x' => NoWeakerHit x x' ∧ x'.time = x.time) l l')
    (h : init stats l n wr ws = .ok s) (h' : init stats' l' n wr' ws = .ok s')
    (hw : ∀ i j, Draw.Valid (ws i j)) {j : ℕ} :
    (∀ a a', s.getRawDamage[j]? = some a → s'.getRawDamage[j]? = some a' → a ≤ a') ∧
    (∀ a a', s.getDps[j]? = some a → s'.getDps[j]? = some a' → a ≤ a') := by
  have b := built h
  have b' := built h'
  have hsort : List.Forall₂ (fun x x' => NoWeakerHit x x' ∧ x'.time = x.time) s.instances s'.instances := by
    rw [b.instances, b'.instances]
    exact forall₂_sortBy (fun _ _ h => h.2) hl
  have rows : List.Forall₂ (fun r r' => Sane r ∧ RowLe r r') s.tracker.rows s'.tracker.rows := by
    refine rows_forall₂ (fun x x' r r' hx k k' => ?_) hsort b.rows b'.rows
    exact ⟨sane_of hs hr.critStat.1 hx.1.mults k, rowLe_of hr hg hs hs' hx.1 k k'⟩
  have key : ∀ a a', s.getRawDamage[j]? = some a → s'.getRawDamage[j]? = some a' → a ≤ a' := by
    intro a a' ha ha'
    unfold getRawDamage at ha ha'
    rw [b.sums, b.matrix] at ha
    rw [b'.sums, b'.matrix] at ha'
    unfold sampleSums at ha ha'
    rw [List.getElem?_map] at ha ha'
    by_cases hj : j < n
    · rw [List.getElem?_range hj] at ha ha'
      simp only [Option.map_some, Option.some.injEq, map_mapIdx'] at ha ha'
      subst ha
      subst ha'
      refine sum_mapIdx_le rows fun i r r' hrr => ?_
      simp only [List.getElem?_map, List.getElem?_range hj, Option.map_some, Option.getD_some]
      exact sample_le hrr.1 hrr.2 (hw i j)
    · rw [List.getElem?_eq_none (by simpa using hj)] at ha
      cases ha
  refine ⟨key, fun a a' ha ha' => ?_⟩
  have ht : fightTime s'.instances = fightTime s.instances := fightTime_congr (hsort.imp fun _ _ h => h.2)
  unfold getDps at ha ha'
  rw [b.dps] at ha
  rw [b'.dps, ht] at ha'
  unfold dpsOf at ha ha'
  rw [List.getElem?_map] at ha ha'
  cases hx : s.sampledDamage[j]? with
  | none => rw [hx] at ha; cases ha
  | some x =>
    cases hx' : s'.sampledDamage[j]? with
    | none => rw [hx'] at ha'; cases ha'
    | some x' =>
      rw [hx] at ha
      rw [hx'] at ha'
      cases ha
      cases ha'
      have := key x x' hx hx'
      split_ifs with ht
      · exact WithTop.coe_le_coe.2 (div_le_div_of_nonneg_right this ht.le)
      · exact le_rfl

end

/-- Better gear, an added buff and an added debuff, a buff that forces critical hits, and one more hit. -/
def Ex.better : List DamageInstance :=
  [Ex.inst 2000 { critRateAdd := 1 / 10, guaranteedCrit := .forceYes } {} 1,
   Ex.inst 0 { damageMult := 12 / 10, mainStatAdd := 20 } { critRateAdd := 1 / 5, dhRateAdd := 1 / 5 } 0]

theorem Ex.insts_better : List.Forall₂ (fun x x' => NoWeakerHit x x' ∧ x'.time = x.time) Ex.insts Ex.better := by
  have spec : ∀ (t t' : ℚ) (a b a' b' : StatusEffects) (i i' : ℕ), ∃ d potency',
      (Ex.inst t a b i).skill.getDamageSpec (Ex.inst t a b i).modifier = .ok (some d) ∧
      (Ex.inst t' a' b' i').skill.getDamageSpec (Ex.inst t' a' b' i').modifier =
        .ok (some { d with potency := potency' }) ∧
      (0 ≤ d.potency ∧ d.potency ≤ potency') ∧ NonNegDamage d ∧
      ∀ t, d.traitDamageMultOverride = some t → 0 ≤ t := by
    intro t t' a b a' b' i i'
    refine ⟨{ potency := 300 }, 300, rfl, rfl, by norm_num, ⟨by norm_num, by norm_num, ?_⟩, ?_⟩ <;>
    · intro x h
      cases h
  refine .cons ⟨⟨rfl, ?_, ?_, spec _ _ _ _ _ _ _ _⟩, rfl⟩ (.cons ⟨⟨rfl, ?_, ?_, spec _ _ _ _ _ _ _ _⟩, rfl⟩ .nil)
  · exact ⟨by norm_num [Ex.inst], by norm_num [Ex.inst], by norm_num [Ex.inst], by norm_num [Ex.inst],
      by norm_num [Ex.inst], .inr ⟨rfl, rfl⟩, .inl rfl⟩
  · exact ⟨by norm_num [Ex.inst], by norm_num [Ex.inst], by norm_num [Ex.inst], by norm_num [Ex.inst],
      by norm_num [Ex.inst], .inl rfl, .inl rfl⟩
  · exact ⟨by norm_num [Ex.inst], by norm_num [Ex.inst], by norm_num [Ex.inst], by norm_num [Ex.inst],
      by norm_num [Ex.inst], .inl rfl, .inl rfl⟩
  · exact ⟨by norm_num [Ex.inst], by norm_num [Ex.inst], by norm_num [Ex.inst], by norm_num [Ex.inst],
      by norm_num [Ex.inst], .inl rfl, .inl rfl⟩

/-- The hypotheses of C93 are met by two characters and their hits; the one with one more hit, too. -/
example : NoStronger Ex.rawStats { Ex.rawStats with wd := 130, critStat := 2400 } ∧ Grown Ex.rawStats ∧
    List.Forall₂ (fun x x' => NoWeakerHit x x' ∧ x'.time = x.time) Ex.insts Ex.better ∧
    Ex.okAnd (mkStats Ex.rawStats) (fun st => Ex.okAnd (init st Ex.insts 1 (fun _ _ => Ex.half) (fun _ _ => Ex.half))
      (fun s => s.getExpectedDamage = 21974265939 / 1000000 ∧ s.getRawDamage = [16934])) = true ∧
    Ex.okAnd (mkStats { Ex.rawStats with wd := 130, critStat := 2400 }) (fun st =>
      Ex.okAnd (init st Ex.better 1 (fun _ _ => Ex.half) (fun _ _ => Ex.half))
      (fun s => s.getExpectedDamage = 2920521817 / 100000 ∧ s.getRawDamage = [24071])) = true ∧
    Ex.okAnd (mkStats { Ex.rawStats with wd := 130, critStat := 2400 }) (fun st =>
      Ex.okAnd (init st (Ex.inst 3000 {} {} 2 :: Ex.better) 1 (fun _ _ => Ex.half) (fun _ _ => Ex.half))
      (fun s => s.getExpectedDamage = 3937244419 / 100000)) = true := by
  refine ⟨⟨rfl, rfl, rfl, by decide +kernel, by decide +kernel, by decide +kernel, by decide +kernel,
    by decide +kernel, by decide +kernel, by decide +kernel, .inr ⟨_, _, rfl, rfl, by decide +kernel⟩,
    .inl ⟨rfl, rfl⟩, .inl ⟨rfl, rfl⟩⟩, ⟨by norm_num [Ex.rawStats], by norm_num [baseSub, Ex.rawStats]⟩, Ex.insts_better,
    by decide +kernel, by decide +kernel, by decide +kernel⟩

end Ama
