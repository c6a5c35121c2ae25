import Mathlib.Data.Fintype.Pi
import Mathlib.Data.Fintype.BigOperators
import Verif.Lemmas.RotationAnalysis
import Verif.Props.KillTime

/-!
# Damage over time (C52, C64)
-/

namespace Ama

open Spec RotationAnalysis

/-! ## C52: cumulative damage reports -/

/-- C52.  Damage snapshotted before a timestamp is the floating point sum, in the order of the list, of the expected
damage of the entries that snapshot at or before the (rounded) time. -/
theorem C52_before {per : List PerInstanceDamage} {t r : ℚ}
    (h : getAllDamageSnapshotsBeforeTimestamp per t = .ok r) :
    r = floatTotal (snapshotted per fun s => decide (s ≤ float64 (1000 * t))) :=
  before_spec h

/-- C52.  With non-negative damage it does not decrease with the timestamp, rounding errors included. -/
theorem C52_monotone {per : List PerInstanceDamage} (hp : ∀ p ∈ per, 0 ≤ p.expectedDamage) {t t' r r' : ℚ}
    (ht : t ≤ t') (h : getAllDamageSnapshotsBeforeTimestamp per t = .ok r)
    (h' : getAllDamageSnapshotsBeforeTimestamp per t' = .ok r') : r ≤ r' := by
  rw [before_spec h, before_spec h']
  refine floatTotal_sublist (snapshotted_sublist per fun s hs => ?_) fun p hp' => ?_
  · have : float64 (1000 * t) ≤ float64 (1000 * t') := float64_mono (by linarith)
    exact decide_eq_true ((of_decide_eq_true hs).trans this)
  · exact hp p (List.mem_filter.1 hp').1

/-- C52.  The rows of the interval report: first the multiples of the interval before the latest snapshot, in
order, then the latest snapshot; with every time the damage snapshotted until then, rounded to cents.  With
non-negative damage the totals do not decrease. -/
theorem C52_report {per : List PerInstanceDamage} {interval : ℤ} (hi : 0 < interval) {rows : List (ℚ × ℚ)}
    (h : getDpsAtIntervals per interval = .ok rows) :
    ∃ T multiples, IsLatest per T ∧ rows.map Prod.fst = multiples ++ [float64 (T / 1000)] ∧
      (∀ x, x ∈ multiples ↔ ∃ k : ℕ, x = (k + 1) * interval ∧ x < float64 (T / 1000)) ∧
      rows.Pairwise (fun a b => a.1 < b.1) ∧
      (∀ row ∈ rows, ∃ tot, getAllDamageSnapshotsBeforeTimestamp per row.1 = .ok tot ∧ row.2 = pyRound2 tot) ∧
      ((∀ p ∈ per, 0 ≤ p.expectedDamage) → rows.Pairwise fun a b => a.2 ≤ b.2) := by
  unfold getDpsAtIntervals at h
  obtain ⟨T, h1, h⟩ := Py.bind_eq_ok.1 h
  obtain ⟨ts, h2, h3⟩ := Py.bind_eq_ok.1 h
  unfold timestamps at h2
  obtain ⟨r, h4, h5⟩ := Py.bind_eq_ok.1 h2
  cases h5
  obtain ⟨hr1, hr2⟩ := mem_pyRange_pos hi h4
  have hrow : ∀ row ∈ rows, ∃ tot, getAllDamageSnapshotsBeforeTimestamp per row.1 = .ok tot ∧
      row.2 = pyRound2 tot := by
    intro row hrow
    obtain ⟨t, -, ht⟩ := KillTimeEstimator.mapM_mem h3 hrow
    obtain ⟨tot, e1, e2⟩ := Py.bind_eq_ok.1 ht
    cases e2
    exact ⟨tot, e1, rfl⟩
  have hfst : rows.map Prod.fst = r.map (fun i : ℤ => (i : ℚ)) ++ [float64 (T / 1000)] := by
    refine List.ext_getElem? fun i => ?_
    rw [List.getElem?_map]
    have hl := DamageSimulator.mapM_length h3
    cases hg : rows[i]? with
    | none =>
      rw [List.getElem?_eq_none_iff, hl] at hg
      rw [List.getElem?_eq_none hg]
      rfl
    | some row =>
      obtain ⟨t, ht, e⟩ := DamageSimulator.mapM_get h3 hg
      obtain ⟨tot, -, e2⟩ := Py.bind_eq_ok.1 e
      cases e2
      rw [ht]
      rfl
  have hlt : rows.Pairwise fun a b => a.1 < b.1 := by
    rw [← List.pairwise_map (f := Prod.fst) (R := (· < ·)), hfst, List.pairwise_append]
    refine ⟨?_, by simp, ?_⟩
    · rw [List.pairwise_map]
      exact hr1.imp fun h => by exact_mod_cast h
    · intro a ha b hb
      obtain ⟨n, hn, rfl⟩ := List.mem_map.1 ha
      rw [List.mem_singleton.1 hb]
      obtain ⟨k, -, hk⟩ := (hr2 n).1 hn
      exact (lt_ceil_iff _ _).1 hk
  refine ⟨T, r.map (fun i : ℤ => (i : ℚ)), latest_spec h1, hfst, fun x => ?_, hlt, hrow, fun hp => ?_⟩
  · rw [List.mem_map]
    constructor
    · rintro ⟨n, hn, rfl⟩
      obtain ⟨k, rfl, hk⟩ := (hr2 n).1 hn
      exact ⟨k, by push_cast; ring, (lt_ceil_iff _ _).1 hk⟩
    · rintro ⟨k, rfl, hk⟩
      refine ⟨interval + k * interval, (hr2 _).2 ⟨k, rfl, (lt_ceil_iff _ _).2 ?_⟩, by push_cast; ring⟩
      push_cast
      linarith
  · refine hlt.imp_of_mem fun {a b} ha hb hab => ?_
    obtain ⟨x, e1, e2⟩ := hrow a ha
    obtain ⟨y, f1, f2⟩ := hrow b hb
    rw [e2, f2]
    exact pyRound2_mono (C52_monotone hp hab.le e1 f1)

/-- C52.  With snapshot times in whole milliseconds (below 2^50), the last row of the interval report accounts
for everything that snapshots before the latest snapshot.  Missing: the damage of the latest snapshot itself,
see `C52_complete_partial` and `C52_last_refuted`. -/
theorem C52_last_partial {per : List PerInstanceDamage} {interval : ℤ} (hi : 0 < interval)
    {rows : List (ℚ × ℚ)} (h : getDpsAtIntervals per interval = .ok rows)
    (hw : ∀ p ∈ per, ∀ t, p.snapshotTime = some t → t ≤ 2 ^ 50 ∧ ∃ n : ℤ, t = n) :
    ∃ T t tot l, IsLatest per T ∧ rows.getLast? = some (t, pyRound2 tot) ∧ tot = floatTotal l ∧
      (snapshotted per fun s => decide (s < T)).Sublist l ∧ l.Sublist per := by
  obtain ⟨T, ms, h1, h2, -, -, h3, -⟩ := C52_report hi h
  have hne : rows ≠ [] := by
    rintro rfl
    simp at h2
  obtain ⟨a, ha⟩ : ∃ a, rows.getLast? = some a := by
    cases e : rows.getLast? with
    | none => exact absurd (List.getLast?_eq_none_iff.1 e) hne
    | some a => exact ⟨a, rfl⟩
  have ha1 : a.1 = float64 (T / 1000) := by
    have := congrArg List.getLast? h2
    rw [List.getLast?_map, ha] at this
    simpa using this
  obtain ⟨tot, e1, e2⟩ := h3 a (List.mem_of_getLast? ha)
  refine ⟨T, a.1, tot, _, h1, by rw [ha, ← e2], before_spec e1, ?_, List.filter_sublist⟩
  unfold snapshotted
  obtain ⟨hT0, hT1, -⟩ := h1
  have hTn : T ≤ 2 ^ 50 ∧ ∃ n : ℤ, T = n := by
    rcases hT0 with rfl | ⟨p, hp, hp'⟩
    · exact ⟨by norm_num, -1, by norm_num⟩
    · exact hw p hp T hp'
  have hbound : T - 1 ≤ float64 (1000 * a.1) := by
    rw [ha1]
    have k1 := float64_error (T / 1000)
    have k2 := float64_error (1000 * float64 (T / 1000))
    set y := float64 (T / 1000)
    set z := float64 (1000 * y)
    have hT : |T| ≤ 2 ^ 50 := abs_le.2 ⟨by linarith [hT1], hTn.1⟩
    have k3 : |T / 1000| ≤ 2 ^ 50 / 1000 := by
      rw [abs_div, abs_of_pos (show (0 : ℚ) < 1000 by norm_num)]
      exact div_le_div_of_nonneg_right hT (by norm_num)
    have k4 := abs_le.1 (k1.trans (div_le_div_of_nonneg_right k3 (by norm_num)))
    have k5 := abs_le.1 k3
    have k6 : |1000 * y| ≤ 2 ^ 51 := by
      rw [abs_le]
      constructor <;> norm_num at k4 k5 ⊢ <;> linarith [k4.1, k4.2, k5.1, k5.2]
    have k7 := abs_le.1 (k2.trans (div_le_div_of_nonneg_right k6 (by norm_num)))
    norm_num at k4 k7 ⊢
    linarith [k4.1, k7.1]
  rw [show (fun p : PerInstanceDamage => p.snapshotTime.any fun s => decide (s < T)) = _ from rfl]
  have : per.filter (fun p => p.snapshotTime.any fun s => decide (s < T)) =
      (per.filter fun p => p.snapshotTime.any fun s => decide (s ≤ float64 (1000 * a.1))).filter
        fun p => p.snapshotTime.any fun s => decide (s < T) := by
    rw [List.filter_filter]
    refine List.filter_congr fun p hp => ?_
    cases hs : p.snapshotTime with
    | none => rfl
    | some s =>
      simp only [Option.any_some]
      by_cases hlt : s < T
      · obtain ⟨-, n, hn⟩ := hw p hp s hs
        obtain ⟨-, m, hm⟩ := hTn
        have : s ≤ T - 1 := by
          rw [hn, hm] at hlt ⊢
          have : n < m := by exact_mod_cast hlt
          have : n ≤ m - 1 := by omega
          exact_mod_cast this
        rw [decide_eq_true hlt, decide_eq_true (this.trans hbound)]
        rfl
      · rw [decide_eq_false hlt]
        rfl
  rw [this]
  exact List.filter_sublist

/-- C52.  If the latest snapshot time survives the conversion to seconds and back, the last row accounts for
all damage. -/
theorem C52_complete_partial {per : List PerInstanceDamage} {interval : ℤ} (hi : 0 < interval)
    {rows : List (ℚ × ℚ)} (h : getDpsAtIntervals per interval = .ok rows)
    (hT : ∀ T, IsLatest per T → T ≤ float64 (1000 * float64 (T / 1000))) :
    ∃ t, rows.getLast? = some (t, pyRound2 (floatTotal per)) := by
  obtain ⟨T, ms, h1, h2, -, -, h3, -⟩ := C52_report hi h
  have hne : rows ≠ [] := by
    rintro rfl
    simp at h2
  obtain ⟨a, ha⟩ : ∃ a, rows.getLast? = some a := by
    cases e : rows.getLast? with
    | none => exact absurd (List.getLast?_eq_none_iff.1 e) hne
    | some a => exact ⟨a, rfl⟩
  have ha1 : a.1 = float64 (T / 1000) := by
    have := congrArg List.getLast? h2
    rw [List.getLast?_map, ha] at this
    simpa using this
  obtain ⟨tot, e1, e2⟩ := h3 a (List.mem_of_getLast? ha)
  refine ⟨a.1, ?_⟩
  rw [ha, ← show a.2 = pyRound2 (floatTotal per) from ?_]
  rw [e2, before_spec e1]
  congr 2
  unfold snapshotted
  refine List.filter_eq_self.2 fun p hp => ?_
  obtain ⟨t, ht, hle⟩ := h1.2.2 p hp
  rw [ht, ha1]
  exact decide_eq_true (hle.trans (hT T h1))

namespace Ex

/-- An entry of the report. -/
def entry (snapshot damage : ℚ) : PerInstanceDamage :=
  { applicationTime := snapshot, snapshotTime := some snapshot, skillName := "Hit", potency := 300,
    withCondition := ∅, statusEffects := ({}, {}), expectedDamage := damage, variance := some 0, eventId := 0,
    target := "Boss", damageClass := .direct }

end Ex

/-- C52 is false of the last row: for a hit that snapshots at 1001 ms the time 1.001 s is converted back to
1000.9999999999999 ms, and the damage is missing from the report. -/
theorem C52_last_refuted : ∃ per : List PerInstanceDamage, (∀ p ∈ per, 0 < p.expectedDamage) ∧
    (∀ p ∈ per, ∃ t : ℕ, p.snapshotTime = some (t : ℚ)) ∧
    ∃ t, getDpsAtIntervals per 10 = .ok [(t, 0)] :=
  ⟨[Ex.entry 1001 5000], by simp [Ex.entry], by simpa [Ex.entry] using ⟨1001, by norm_num⟩,
    float64 (1001 / 1000), by decide +kernel⟩

/-- The report of three hits with the latest at a time that survives the conversion. -/
example : (∀ p ∈ [Ex.entry 0 100, Ex.entry 2500 (401 / 4), Ex.entry 2400 50], 0 ≤ p.expectedDamage) ∧
    (2500 : ℚ) ≤ float64 (1000 * float64 (2500 / 1000)) ∧
    getDpsAtIntervals [Ex.entry 0 100, Ex.entry 2500 (401 / 4), Ex.entry 2400 50] 1 =
      .ok [(1, 100), (2, 100), (5 / 2, 1001 / 4)] := by
  refine ⟨?_, by decide +kernel, by decide +kernel⟩
  intro p hp
  simp only [List.mem_cons, List.not_mem_nil, or_false] at hp
  rcases hp with rfl | rfl | rfl <;> norm_num [Ex.entry]

/-! ## C64: expected best of several runs -/

/-- C64.  The expected best of `k` runs lies between any lower and any upper bound of the given values. -/
theorem C64_bounds {x : List ℚ} {k trials : ℕ} {w : ℕ → ℕ → Fin x.length} {r lo hi : ℚ}
    (hlo : ∀ y ∈ x, lo ≤ y) (hhi : ∀ y ∈ x, y ≤ hi)
    (h : getExpectedMaxInKRuns x k trials w = .ok (some r)) : lo ≤ r ∧ r ≤ hi := by
  obtain ⟨res, h1, h2, rfl⟩ := expectedMax_ok h
  have hb : ∀ m ∈ res, lo ≤ m ∧ m ≤ hi := by
    intro m hm
    obtain ⟨i, -, hi'⟩ := KillTimeEstimator.mapM_mem h1 hm
    have := (npMax_spec hi').1
    obtain ⟨j, -, rfl⟩ := List.mem_map.1 this
    exact ⟨hlo _ (List.getElem_mem _), hhi _ (List.getElem_mem _)⟩
  have hlen : res.length = trials := by
    rw [DamageSimulator.mapM_length h1, List.length_range]
  have hpos : (0 : ℚ) < trials := by exact_mod_cast h2
  have hsum := sum_between hb
  rw [hlen] at hsum
  exact ⟨(le_div_iff₀ hpos).2 (by linarith [hsum.1]), (div_le_iff₀ hpos).2 (by linarith [hsum.2])⟩

/-- C64.  More runs never make the expected best smaller, if the first runs of every trial are the same. -/
theorem C64_monotone {x : List ℚ} {k k' trials : ℕ} (hk : k ≤ k') {w : ℕ → ℕ → Fin x.length} {r r' : ℚ}
    (h : getExpectedMaxInKRuns x k trials w = .ok (some r))
    (h' : getExpectedMaxInKRuns x k' trials w = .ok (some r')) : r ≤ r' := by
  obtain ⟨res, h1, h2, rfl⟩ := expectedMax_ok h
  obtain ⟨res', h1', -, rfl⟩ := expectedMax_ok h'
  have hpos : (0 : ℚ) < trials := by exact_mod_cast h2
  refine div_le_div_of_nonneg_right (List.Forall₂.sum_le_sum ?_) hpos.le
  rw [List.forall₂_iff_get]
  have hlen : res.length = res'.length := by
    rw [DamageSimulator.mapM_length h1, DamageSimulator.mapM_length h1']
  refine ⟨hlen, fun i hi hi' => ?_⟩
  obtain ⟨a, ha, ea⟩ := DamageSimulator.mapM_get h1 (List.getElem?_eq_getElem hi)
  obtain ⟨b, hb, eb⟩ := DamageSimulator.mapM_get h1' (List.getElem?_eq_getElem hi')
  rw [ha] at hb
  cases hb
  obtain ⟨m1, -⟩ := npMax_spec ea
  obtain ⟨-, m2⟩ := npMax_spec eb
  obtain ⟨j, hj, e⟩ := List.mem_map.1 m1
  have := m2 _ (List.mem_map.2 ⟨j, List.mem_range.2 (lt_of_lt_of_le (List.mem_range.1 hj) hk), rfl⟩)
  simp only [List.get_eq_getElem]
  rw [← e]
  exact this

/-- C64.  The result is the mean over the trials of the best of the `k` values chosen in each. -/
theorem C64_mean {x : List ℚ} {k trials : ℕ} {w : ℕ → ℕ → Fin x.length} {r : ℚ}
    (h : getExpectedMaxInKRuns x k trials w = .ok (some r)) :
    ∃ best : List ℚ, best.length = trials ∧ r * trials = best.sum ∧
      ∀ i b, best[i]? = some b → IsGreatest {y | ∃ j < k, y = x[w i j]} b := by
  obtain ⟨res, h1, h2, rfl⟩ := expectedMax_ok h
  have hlen : res.length = trials := by
    rw [DamageSimulator.mapM_length h1, List.length_range]
  have hpos : (0 : ℚ) < trials := by exact_mod_cast h2
  refine ⟨res, hlen, div_mul_cancel₀ _ hpos.ne', fun i b hb => ?_⟩
  obtain ⟨a, ha, ea⟩ := DamageSimulator.mapM_get h1 hb
  have hi : i < trials := by
    rw [← hlen]
    exact (List.getElem?_eq_some_iff.1 hb).1
  rw [List.getElem?_range hi] at ha
  cases ha
  obtain ⟨m1, m2⟩ := npMax_spec ea
  constructor
  · obtain ⟨j, hj, e⟩ := List.mem_map.1 m1
    exact ⟨j, List.mem_range.1 hj, e.symm⟩
  · rintro y ⟨j, hj, rfl⟩
    exact m2 _ (List.mem_map.2 ⟨j, List.mem_range.2 hj, rfl⟩)

/-- C64.  If the trials go through all choices of `k` values once, in any order, the share of trials whose best is at most
`y` is the `k`-th power of the share of values that are at most `y`, as for `k` independent runs. -/
theorem C64_distribution {x : List ℚ} {k trials : ℕ} {w : ℕ → ℕ → Fin x.length} {r : ℚ}
    (h : getExpectedMaxInKRuns x k trials w = .ok (some r))
    (hw : Function.Bijective (fun (i : Fin trials) (j : Fin k) => w i j)) :
    ∃ best : List ℚ, best.length = trials ∧ r * trials = best.sum ∧
      ∀ y, (best.countP (fun b => decide (b ≤ y)) : ℚ) / trials =
        ((x.countP (fun a => decide (a ≤ y)) : ℚ) / x.length) ^ k := by
  obtain ⟨best, hlen, hsum, hb⟩ := C64_mean h
  refine ⟨best, hlen, hsum, fun y => ?_⟩
  have hcount : ∀ l : List ℚ, l.countP (fun a => decide (a ≤ y)) =
      (Finset.univ.filter (fun a : Fin l.length => l[a] ≤ y)).card := by
    intro l
    have hl : l = (List.finRange l.length).map (fun a => l[a]) := by
      rw [← List.ofFn_eq_map]
      exact (List.ofFn_getElem (xs := l)).symm
    conv_lhs => rw [hl, List.countP_map]
    rw [List.countP_eq_length_filter]
    exact (Finset.card_def _).symm ▸ rfl
  have htr : trials = x.length ^ k := by
    have := Fintype.card_of_bijective hw
    simpa using this
  have hcard : best.countP (fun b => decide (b ≤ y)) = x.countP (fun a => decide (a ≤ y)) ^ k := by
    subst hlen
    rw [hcount best, hcount x]
    have h1 : (Finset.univ.filter (fun i : Fin best.length => best[i] ≤ y)).card =
        (Finset.univ.filter (fun f : Fin k → Fin x.length => ∀ j, x[f j] ≤ y)).card := by
      refine Finset.card_bijective _ hw (fun i => ?_)
      simp only [Finset.mem_filter, Finset.mem_univ, true_and]
      obtain ⟨⟨j, hj, e⟩, hub⟩ := hb i best[i] (List.getElem?_eq_getElem i.2)
      constructor
      · intro hle j
        exact le_trans (hub ⟨j, j.2, rfl⟩) hle
      · intro hall
        rw [e]
        exact hall ⟨j, hj⟩
    rw [h1]
    have h2 : (Finset.univ.filter (fun f : Fin k → Fin x.length => ∀ j, x[f j] ≤ y)) =
        Fintype.piFinset (fun _ => Finset.univ.filter (fun a : Fin x.length => x[a] ≤ y)) := by
      ext f
      simp [Fintype.mem_piFinset]
    rw [h2, Fintype.card_piFinset_const]
  rw [hcard, htr]
  push_cast
  rw [div_pow]

/-- The best of one and of two runs in three trials. -/
example : getExpectedMaxInKRuns [3, 5, 10] 1 3 (fun i j => if j = 0 then ⟨i % 3, by simp; omega⟩ else ⟨1, by simp⟩) =
      .ok (some 6) ∧
    getExpectedMaxInKRuns [3, 5, 10] 2 3 (fun i j => if j = 0 then ⟨i % 3, by simp; omega⟩ else ⟨1, by simp⟩) =
      .ok (some (20 / 3)) := by
  constructor <;> decide +kernel

/-- All choices of two of the values 3 and 5: in a quarter of them the best is at most 3. -/
example : ∃ w : ℕ → ℕ → Fin [(3 : ℚ), 5].length,
    Function.Bijective (fun (i : Fin 4) (j : Fin 2) => w i j) ∧
    getExpectedMaxInKRuns [3, 5] 2 4 w = .ok (some (9 / 2)) :=
  ⟨fun i j => if j = 0 then ⟨i % 2, by simp; omega⟩ else ⟨i / 2 % 2, by simp; omega⟩, by decide +kernel, by decide +kernel⟩

end Ama
