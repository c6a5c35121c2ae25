import Verif.Lemmas.KillTime
import Verif.Examples.Rotation
import Verif.Props.Simulation

/-!
# Kill times (C50, C51, C63)
-/

namespace Ama

open Spec KillTimeEstimator

/-! ## C50: the kill time is the first crossing -/

/-- C50.  Let `parts` be the damage matrices and times of the rotations, and let `idx` be any order that
`np.argsort` may return for all the times together.  Then the hits of every sample are gone through in
time order; the kill time of the sample is the time in seconds of the first hit with which the accumulated
damage reaches the boss HP; and a sample that never reaches it is reported as `None`.  The result lists
the kill times in the order of the samples and then the `None`s.  The accumulated damage that is returned
is that of the hits in this order. -/
theorem C50_first_crossing {fuel n : ℕ} {k : KillTimeEstimator} {choices : List RotationChoices} {idx : List ℕ}
    {kt : List (Option ℚ)} {cum : List (List ℚ)} {ts : List ℚ}
    (hc : choices.length = k.rotations.length)
    (h : estimateKillTime fuel n k choices idx = .ok (kt, cum, ts)) :
    ∃ parts, (k.rotations.zip choices).mapM (fun p => rotationDamage fuel n p.1 p.2) = .ok parts ∧
      parts.length = k.rotations.length ∧
      (parts.flatMap (·.2)).length = (parts.flatMap (·.1)).length ∧
      (IsArgsort (parts.flatMap (·.2)) idx →
        ts.Perm (parts.flatMap (·.2)) ∧ ts.Pairwise (· ≤ ·) ∧
        ∃ hits : ℕ → List (ℚ × ℚ),
          (∀ j, (hits j).Perm (sampleHits (parts.flatMap (·.2)) (parts.flatMap (·.1)) j) ∧
            (hits j).map Prod.fst = ts) ∧
          ∃ ks : List (Option ℚ), ks.length = n ∧ kt = packed ks ∧
            ∀ j < n, (∀ T, ks[j]? = some (some T) → FirstCrossing k.bossHp (hits j) (1000 * T)) ∧
              (ks[j]? = some none → NeverCrosses k.bossHp (hits j)) ∧
              ∃ c, cum[j]? = some c ∧ c.length = ts.length ∧
                ∀ i < ts.length, c[i]? = some (damageOf ((hits j).take (i + 1)))) := by
  obtain ⟨parts, h1, h2, ms, h3, h4, h5, h6⟩ := estimate_ok h
  refine ⟨parts, h1, by rw [DamageSimulator.mapM_length h1, List.length_zip, hc, min_self], h2, fun ha => ?_⟩
  have hs := fun j => hits_sorted h2 ha h3 h4 j
  refine ⟨(hs 0).2.1, (hs 0).2.2.1, fun j => sampleHits ts ms j, fun j => ⟨(hs j).2.2.2.1, (hs j).2.2.2.2⟩,
    _, by simp, h5, fun j hj => ⟨fun T hT => ?_, fun hN => ?_, ?_⟩⟩
  · rw [List.getElem?_map, List.getElem?_range hj] at hT
    simp only [Option.map_some, Option.some.injEq, Option.map_eq_some_iff] at hT
    obtain ⟨a, ha', rfl⟩ := hT
    have := crossing_some ha'
    rwa [show 1000 * (a / 1000) = a by ring]
  · rw [List.getElem?_map, List.getElem?_range hj] at hN
    simp only [Option.map_some, Option.some.injEq, Option.map_eq_none_iff] at hN
    exact crossing_none hN
  · have hlen : ((sampleHits ts ms j).map (·.2)).length = ts.length := by
      have := congrArg List.length (hs j).2.2.2.2
      simpa using this
    refine ⟨cumsum 0 ((sampleHits ts ms j).map (·.2)), ?_, ?_, ?_⟩
    · rw [h6, List.getElem?_map, List.getElem?_range hj]
      rfl
    · rw [cumsum_length, hlen]
    · intro i hi
      rw [cumsum_get _ _ _ (by rw [hlen]; exact hi), damageOf_take]
      simp

/-! ## C51: non-negative damage -/

/-- With non-negative damage the kill time of a sample does not depend on the order of the hits: it is the
earliest time of a hit such that the damage of all hits up to that time reaches the boss HP. -/
theorem C51_order_free {fuel n : ℕ} {k : KillTimeEstimator} {choices : List RotationChoices} {idx : List ℕ}
    {kt : List (Option ℚ)} {cum : List (List ℚ)} {ts : List ℚ}
    (hc : choices.length = k.rotations.length)
    (h : estimateKillTime fuel n k choices idx = .ok (kt, cum, ts))
    {parts : List (List (List ℚ) × List ℚ)}
    (hp : (k.rotations.zip choices).mapM (fun p => rotationDamage fuel n p.1 p.2) = .ok parts)
    (ha : IsArgsort (parts.flatMap (·.2)) idx)
    (hn : ∀ row ∈ parts.flatMap (·.1), ∀ x ∈ row, (0 : ℚ) ≤ x) :
    ∃ ks : List (Option ℚ), ks.length = n ∧ kt = packed ks ∧ ∀ j < n,
      (∀ T, ks[j]? = some (some T) →
        KillsAt k.bossHp (sampleHits (parts.flatMap (·.2)) (parts.flatMap (·.1)) j) (1000 * T)) ∧
      (ks[j]? = some none → Survives k.bossHp (sampleHits (parts.flatMap (·.2)) (parts.flatMap (·.1)) j)) := by
  obtain ⟨parts', h1, -, h2, h3⟩ := C50_first_crossing hc h
  rw [hp] at h1
  cases h1
  obtain ⟨-, hsort, hits, hperm, ks, h4, h5, h6⟩ := h3 ha
  refine ⟨ks, h4, h5, fun j hj => ?_⟩
  have hs : (hits j).Pairwise fun x y => x.1 ≤ y.1 := by
    have := hsort
    rw [← (hperm j).2, List.pairwise_map] at this
    exact this
  refine ⟨fun T hT => ?_, fun hN => ?_⟩
  · rw [← killsAt_perm (hperm j).1]
    refine killsAt_of_first hs (fun x hx => ?_) ((h6 j hj).1 T hT)
    exact sampleHits_nonneg hn j x ((hperm j).1.mem_iff.1 hx)
  · rw [← survives_perm (hperm j).1]
    exact survives_of_never hs ((h6 j hj).2.1 hN)

/-- C51.  With non-negative damage, the kill times do not depend on how instances at equal times are ordered. -/
theorem C51_tie_order {fuel n : ℕ} {k : KillTimeEstimator} {choices : List RotationChoices}
    {idx idx' : List ℕ} {kt kt' : List (Option ℚ)} {cum cum' : List (List ℚ)} {ts ts' : List ℚ}
    (hc : choices.length = k.rotations.length)
    (h : estimateKillTime fuel n k choices idx = .ok (kt, cum, ts))
    (h' : estimateKillTime fuel n k choices idx' = .ok (kt', cum', ts'))
    {parts : List (List (List ℚ) × List ℚ)}
    (hp : (k.rotations.zip choices).mapM (fun p => rotationDamage fuel n p.1 p.2) = .ok parts)
    (ha : IsArgsort (parts.flatMap (·.2)) idx) (ha' : IsArgsort (parts.flatMap (·.2)) idx')
    (hn : ∀ row ∈ parts.flatMap (·.1), ∀ x ∈ row, (0 : ℚ) ≤ x) : kt = kt' := by
  obtain ⟨ks, h1, rfl, h2⟩ := C51_order_free hc h hp ha hn
  obtain ⟨ks', h1', rfl, h2'⟩ := C51_order_free hc h' hp ha' hn
  congr 1
  refine List.ext_getElem? fun j => ?_
  by_cases hj : j < n
  · have g := h2 j hj
    have g' := h2' j hj
    rw [List.getElem?_eq_getElem (h1.symm ▸ hj)] at g ⊢
    rw [List.getElem?_eq_getElem (h1'.symm ▸ hj)] at g' ⊢
    generalize ks[j] = a at g ⊢
    generalize ks'[j] = b at g' ⊢
    cases a with
    | none =>
      cases b with
      | none => rfl
      | some b => exact absurd (g.2 rfl) (not_survives (g'.1 b rfl))
    | some a =>
      cases b with
      | none => exact absurd (g'.2 rfl) (not_survives (g.1 a rfl))
      | some b =>
        have := killsAt_unique (g.1 a rfl) (g'.1 b rfl)
        rw [show a = b by linarith]
  · rw [List.getElem?_eq_none (by omega), List.getElem?_eq_none (by omega)]

/-- C51.  With non-negative damage, more boss HP never makes the kill time of a sample earlier, and never makes
a sample succeed that failed before. -/
theorem C51_monotone {fuel n : ℕ} {rotations : List RotationBuilder} {hp hp' : ℚ} (hle : hp ≤ hp')
    {choices : List RotationChoices}
    {idx idx' : List ℕ} {kt kt' : List (Option ℚ)} {cum cum' : List (List ℚ)} {ts ts' : List ℚ}
    (hc : choices.length = rotations.length)
    (h : estimateKillTime fuel n ⟨rotations, hp⟩ choices idx = .ok (kt, cum, ts))
    (h' : estimateKillTime fuel n ⟨rotations, hp'⟩ choices idx' = .ok (kt', cum', ts'))
    {parts : List (List (List ℚ) × List ℚ)}
    (hparts : (rotations.zip choices).mapM (fun p => rotationDamage fuel n p.1 p.2) = .ok parts)
    (ha : IsArgsort (parts.flatMap (·.2)) idx) (ha' : IsArgsort (parts.flatMap (·.2)) idx')
    (hn : ∀ row ∈ parts.flatMap (·.1), ∀ x ∈ row, (0 : ℚ) ≤ x) :
    ∃ ks ks' : List (Option ℚ), kt = packed ks ∧ kt' = packed ks' ∧ ks.length = n ∧ ks'.length = n ∧
      ∀ (j : ℕ) (T' : ℚ), ks'[j]? = some (some T') → ∃ T, ks[j]? = some (some T) ∧ T ≤ T' := by
  obtain ⟨ks, h1, rfl, h2⟩ := C51_order_free hc h hparts ha hn
  obtain ⟨ks', h1', rfl, h2'⟩ := C51_order_free hc h' hparts ha' hn
  refine ⟨ks, ks', rfl, rfl, h1, h1', fun j T' hT' => ?_⟩
  have hj : j < n := h1' ▸ (List.getElem?_eq_some_iff.1 hT').1
  obtain ⟨m1, m2⟩ := killsAt_mono hle ((h2' j hj).1 T' hT')
  have g := h2 j hj
  rw [List.getElem?_eq_getElem (h1.symm ▸ hj)] at g ⊢
  generalize ks[j] = a at g ⊢
  cases a with
  | none => exact absurd (g.2 rfl) m2
  | some T =>
    refine ⟨T, rfl, ?_⟩
    have := m1 _ (g.1 T rfl)
    linarith

/-! ## C63: limit breaks -/

/-- C63.  In the matrix of a rotation, the rows of skills whose name does not contain `LB` are those of the
simulator.  For the others the joined conditions must begin with `Exact Damage: N` or `Mean Damage: N` for a
whole number `N` (decimals are ignored); the damage of every sample is `N` in the first case, and in the
second case it lies within five percent of `N`, rounded down. -/
theorem C63_limit_breaks {fuel n : ℕ} {rb : RotationBuilder} {c : RotationChoices} {m : List (List ℚ)}
    {ts : List ℚ} (h : rotationDamage fuel n rb c = .ok (m, ts))
    (hw : ∀ i j, 0 ≤ c.limitBreak i j ∧ c.limitBreak i j < 1) :
    ∃ sim, SimulatorOf fuel n rb c sim ∧ ts = sim.getDamageTime ∧
      m.length = sim.getPerSkillDamage.length ∧
      ∀ i p samples, sim.getPerSkillDamage[i]? = some p → sim.getDamageMatrix[i]? = some samples →
        ∃ row, m[i]? = some row ∧ (¬ NamesLb p.skillName → row = samples.map (·.1)) ∧
          (NamesLb p.skillName → (∃ N, Announces "Exact Damage:" (",".intercalate (c.joinOrder i)) N ∧
              row = List.replicate n (N : ℚ)) ∨
            ∃ N, Announces "Mean Damage:" (",".intercalate (c.joinOrder i)) N ∧ row.length = n ∧
              ∀ x ∈ row, npFloor (95 / 100 * N) ≤ x ∧ x ≤ npFloor (105 / 100 * N)) := by
  unfold rotationDamage at h
  obtain ⟨db, e1, h⟩ := Py.bind_eq_ok.1 h
  obtain ⟨rb', e2, h⟩ := Py.bind_eq_ok.1 h
  obtain ⟨⟨ins, db'⟩, e3, h⟩ := Py.bind_eq_ok.1 h
  obtain ⟨sim, e4, h⟩ := Py.bind_eq_ok.1 h
  obtain ⟨m', e5, h⟩ := Py.bind_eq_ok.1 h
  cases h
  have b := DamageSimulator.built e4
  have hlen := processRows_length e5
  refine ⟨sim, ⟨db, rb', ins, db', e1, e2, e3, e4⟩, rfl, ?_, fun i p samples hp hs => ?_⟩
  · rw [hlen, List.length_map]
    exact (reports_length b).symm
  · obtain ⟨row, h1, h2⟩ := processRows_get e5 hp (by rw [List.getElem?_map, hs]; rfl)
    rw [zero_add] at h2
    refine ⟨row, h1, fun hn => ?_, fun hn => ?_⟩
    · unfold processRow at h2
      rw [if_neg (fun hc => hn (isLb_iff.1 hc))] at h2
      exact (Except.ok.inj h2).symm
    · unfold processRow at h2
      rw [if_pos (isLb_iff.2 hn)] at h2
      unfold getLbDamage at h2
      split at h2
      · rename_i N hN
        cases h2
        refine .inr ⟨N, searchNumber_iff.1 hN, by simp, fun x hx => ?_⟩
        obtain ⟨j, -, rfl⟩ := List.mem_map.1 hx
        have := hw i j
        have hN0 : (0 : ℚ) ≤ N := Nat.cast_nonneg _
        constructor
        · exact npFloor_mono (by nlinarith)
        · exact npFloor_mono (by nlinarith)
      · rename_i N _ hN
        cases h2
        exact .inl ⟨N, searchNumber_iff.1 hN, rfl⟩
      · cases h2

/-- C63.  If the conditions of a limit break have neither form, the estimate raises `RuntimeError`. -/
theorem C63_error {fuel n : ℕ} {rb : RotationBuilder} {c : RotationChoices} {sim : DamageSimulator}
    (hsim : SimulatorOf fuel n rb c sim) {i : ℕ} {p : PerInstanceDamage}
    (hp : sim.getPerSkillDamage[i]? = some p) (hn : NamesLb p.skillName)
    (hc : ∀ N, ¬ Announces "Exact Damage:" (",".intercalate (c.joinOrder i)) N ∧
      ¬ Announces "Mean Damage:" (",".intercalate (c.joinOrder i)) N) :
    rotationDamage fuel n rb c = .error .runtimeError := by
  obtain ⟨db, rb', ins, db', e1, e2, e3, e4⟩ := hsim
  have b := DamageSimulator.built e4
  unfold rotationDamage
  rw [e1, Py.ok_bind, e2, Py.ok_bind, e3, Py.ok_bind]
  simp only [e4, Py.ok_bind]
  cases e5 : processRows n c 0 sim.getPerSkillDamage
      (sim.getDamageMatrix.map fun row => row.map (·.1)) with
  | error e =>
    rw [processRows_error e5]
    rfl
  | ok m =>
    exfalso
    have hi : i < (sim.getDamageMatrix.map fun row => row.map (·.1)).length := by
      rw [List.length_map, ← reports_length b]
      exact (List.getElem?_eq_some_iff.1 hp).1
    obtain ⟨row, -, h2⟩ := processRows_get e5 hp (List.getElem?_eq_getElem hi)
    rw [zero_add] at h2
    unfold processRow getLbDamage at h2
    rw [if_pos (isLb_iff.2 hn)] at h2
    split at h2
    · rename_i N hN
      exact absurd (searchNumber_iff.1 hN) (hc N).2
    · rename_i N _ hN
      exact absurd (searchNumber_iff.1 hN) (hc N).1
    · cases h2

end Ama

/-! ## A concrete estimate -/

namespace Ama.Ex

open Spec KillTimeEstimator

/-- A limit break. -/
def limitBreak : Skill :=
  { name := "Test LB", isGCD := some false
    damageSpec := .single (some { potency := 1 })
    timingSpec := .single (some { baseCastTime := 0 }) }

/-- The library with a limit break. -/
def lbLib : SkillLibrary :=
  { lib with skills := [("test_job", (limitBreak :: skills).map fun s => (s.name, s))] }

def party : RotationChoices :=
  ⟨fun _ _ => half, fun _ j => ⟨1 / 2, 1 / 2, j / 3⟩, fun _ j => if j = 1 then 1 / 2 else 0, fun _ => ["Mean Damage: 1001.7"]⟩

/-- Two rotations, one with a limit break. -/
def fight (hp : ℚ) : Py KillTimeEstimator := do
  let rb ← start.addNext "Hit"
  let rb ← rb.addNext "Spell"
  let rb2 ← RotationBuilder.addNext { start with lib := lbLib } "Hit"
  let rb2 ← rb2.addNext "Test LB" (some { withCondition := {"Mean Damage: 1001.7"} })
  return ⟨[rb, rb2], hp⟩

def partyTimes : List ℚ := [0, 4190, 0, 150]

theorem argsort1 : IsArgsort partyTimes [0, 2, 3, 1] := by
  refine ⟨by decide, ?_⟩
  norm_num [partyTimes]

theorem argsort2 : IsArgsort partyTimes [2, 0, 3, 1] := by
  refine ⟨by decide, ?_⟩
  norm_num [partyTimes]

/-- The hypotheses of the theorems above are met: both orders of the two hits at time 0 are results that
`np.argsort` may have, the damage is not negative, and both give the same kill times: sample 0 after 4.19
seconds, samples 1 and 2 never.  With less boss HP all three succeed, sample 0 already after 0.15 seconds. -/
example : ∃ k k' parts, fight 30000 = .ok k ∧ fight 21000 = .ok k' ∧ k.rotations = k'.rotations ∧
    (k.rotations.zip [party, party]).mapM (fun p => rotationDamage 10 3 p.1 p.2) = .ok parts ∧
    IsArgsort (parts.flatMap (·.2)) [0, 2, 3, 1] ∧ IsArgsort (parts.flatMap (·.2)) [2, 0, 3, 1] ∧
    (∀ row ∈ parts.flatMap (·.1), ∀ x ∈ row, (0 : ℚ) ≤ x) ∧
    (∃ c ts, estimateKillTime 10 3 k [party, party] [0, 2, 3, 1] = .ok ([some (419 / 100), none, none], c, ts)) ∧
    (∃ c ts, estimateKillTime 10 3 k [party, party] [2, 0, 3, 1] = .ok ([some (419 / 100), none, none], c, ts)) ∧
    ∃ c ts, estimateKillTime 10 3 k' [party, party] [2, 0, 3, 1] =
      .ok ([some (15 / 100), some (419 / 100), some (419 / 100)], c, ts) := by
  have h : okAnd (fight 30000) (fun k => okAnd (fight 21000) (fun k' =>
      okAnd ((k.rotations.zip [party, party]).mapM (fun p => rotationDamage 10 3 p.1 p.2)) (fun parts =>
      okAnd (estimateKillTime 10 3 k [party, party] [0, 2, 3, 1]) (fun r1 =>
      okAnd (estimateKillTime 10 3 k [party, party] [2, 0, 3, 1]) (fun r2 =>
      okAnd (estimateKillTime 10 3 k' [party, party] [2, 0, 3, 1]) (fun r3 =>
        decide (k.rotations = k'.rotations ∧ parts.flatMap (·.2) = partyTimes ∧
          (∀ row ∈ parts.flatMap (·.1), ∀ x ∈ row, (0 : ℚ) ≤ x) ∧
          r1.1 = [some (419 / 100), none, none] ∧ r2.1 = [some (419 / 100), none, none] ∧
          r3.1 = [some (15 / 100), some (419 / 100), some (419 / 100)]))))))) = true := by decide +kernel
  obtain ⟨k, h1, h⟩ := ok_of h
  obtain ⟨k', h2, h⟩ := ok_of h
  obtain ⟨parts, h3, h⟩ := ok_of h
  obtain ⟨⟨r1, c1, t1⟩, h4, h⟩ := ok_of h
  obtain ⟨⟨r2, c2, t2⟩, h5, h⟩ := ok_of h
  obtain ⟨⟨r3, c3, t3⟩, h6, h⟩ := ok_of h
  obtain ⟨h7, h8, h9, rfl, rfl, rfl⟩ := of_decide_eq_true h
  exact ⟨k, k', parts, h1, h2, h7, h3, h8 ▸ argsort1, h8 ▸ argsort2, h9, ⟨c1, t1, h4⟩, ⟨c2, t2, h5⟩, c3, t3, h6⟩

/-- The limit break is announced with decimals, which are ignored. -/
example : NamesLb limitBreak.name ∧ Announces "Mean Damage:" (",".intercalate (party.joinOrder 0)) 1001 ∧
    (∀ i j, 0 ≤ party.limitBreak i j ∧ party.limitBreak i j < 1) ∧
    ¬ ∃ N, Announces "Mean Damage:" "Mean: 1001" N := by
  refine ⟨isLb_iff.1 (by decide +kernel), searchNumber_iff.1 (by decide +kernel), fun i j => ?_, ?_⟩
  · simp only [party]
    split_ifs <;> norm_num
  · rintro ⟨N, h⟩
    have := searchNumber_iff.2 h
    revert this
    rw [show searchNumber "Mean Damage:" "Mean: 1001" = none by decide +kernel]
    simp

end Ama.Ex
