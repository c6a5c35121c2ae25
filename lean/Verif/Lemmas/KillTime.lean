import Verif.Spec.KillTime
import Verif.Lemmas.Simulation

/-!
# Lemmas about kill times
-/

namespace Ama

open Spec

namespace KillTimeEstimator

open DamageSimulator (mapM_length mapM_get)

theorem cumsum_length : ∀ (acc : ℚ) (l : List ℚ), (cumsum acc l).length = l.length
  | _, [] => rfl
  | acc, x :: l => by simp [cumsum, cumsum_length (acc + x) l]

theorem cumsum_get : ∀ (l : List ℚ) (acc : ℚ) (k : ℕ), k < l.length →
    (cumsum acc l)[k]? = some (acc + (l.take (k + 1)).sum)
  | [], _, _, h => by simp at h
  | x :: l, acc, 0, _ => by simp [cumsum]
  | x :: l, acc, k + 1, h => by
    have := cumsum_get l (acc + x) k (by simpa using h)
    simp only [cumsum, List.getElem?_cons_succ, this, List.take_succ_cons, List.sum_cons]
    congr 1
    ring

theorem damageOf_take (hits : List (ℚ × ℚ)) (k : ℕ) :
    damageOf (hits.take k) = ((hits.map (·.2)).take k).sum := by
  unfold damageOf
  rw [List.map_take]

/-- The time of the first crossing found by the code. -/
def crossing (hp : ℚ) (hits : List (ℚ × ℚ)) : Option ℚ :=
  (firstIndex hp (cumsum 0 (hits.map (·.2)))).bind fun i => (hits[i]?).map (·.1)

theorem firstIndex_some {hp : ℚ} {hits : List (ℚ × ℚ)} {i : ℕ}
    (h : firstIndex hp (cumsum 0 (hits.map (·.2))) = some i) :
    ∃ hit, hits[i]? = some hit ∧ hp ≤ damageOf (hits.take (i + 1)) ∧
      ∀ k, 0 < k → k ≤ i → damageOf (hits.take k) < hp := by
  unfold firstIndex at h
  rw [List.findIdx?_eq_some_iff_getElem] at h
  obtain ⟨hi, h1, h2⟩ := h
  have hlen : i < hits.length := by simpa [cumsum_length] using hi
  refine ⟨hits[i], List.getElem?_eq_getElem hlen, ?_, ?_⟩
  · have e := cumsum_get (hits.map (·.2)) 0 i (by simpa using hlen)
    rw [List.getElem?_eq_getElem hi] at e
    rw [Option.some.inj e] at h1
    rw [damageOf_take]
    simpa using h1
  · intro k hk hki
    obtain ⟨j, rfl⟩ : ∃ j, k = j + 1 := ⟨k - 1, by omega⟩
    have hj : j < i := by omega
    have h3 := h2 j hj
    have e := cumsum_get (hits.map (·.2)) 0 j (by simp; omega)
    rw [List.getElem?_eq_getElem (by omega)] at e
    rw [Option.some.inj e] at h3
    rw [damageOf_take]
    simpa using h3

theorem firstIndex_none {hp : ℚ} {hits : List (ℚ × ℚ)}
    (h : firstIndex hp (cumsum 0 (hits.map (·.2))) = none) : NeverCrosses hp hits := by
  intro k hk hl
  unfold firstIndex at h
  rw [List.findIdx?_eq_none_iff] at h
  obtain ⟨j, rfl⟩ : ∃ j, k = j + 1 := ⟨k - 1, by omega⟩
  have e := cumsum_get (hits.map (·.2)) 0 j (by simp; omega)
  have := h _ (List.mem_of_getElem? e)
  rw [damageOf_take]
  simpa using this

theorem crossing_some {hp : ℚ} {hits : List (ℚ × ℚ)} {T : ℚ} (h : crossing hp hits = some T) :
    FirstCrossing hp hits T := by
  unfold crossing at h
  obtain ⟨i, hi, h⟩ := Option.bind_eq_some_iff.1 h
  obtain ⟨hit, h1, h2, h3⟩ := firstIndex_some hi
  rw [h1] at h
  have hlen : i < hits.length := (List.getElem?_eq_some_iff.1 h1).1
  have hget : hits[i] = hit := (List.getElem?_eq_some_iff.1 h1).2
  have split : hits = hits.take i ++ hit :: hits.drop (i + 1) := by
    rw [← hget, List.getElem_cons_drop, List.take_append_drop]
  refine ⟨hits.take i, hit, hits.drop (i + 1), split, Option.some.inj h, ?_, ?_⟩
  · rw [← hget, List.take_append_getElem]
    exact h2
  · intro k hk hl
    rw [List.length_take] at hl
    rw [List.take_take, min_eq_left (by omega)]
    exact h3 k hk (by omega)

theorem crossing_none {hp : ℚ} {hits : List (ℚ × ℚ)} (h : crossing hp hits = none) :
    NeverCrosses hp hits := by
  unfold crossing at h
  cases hi : firstIndex hp (cumsum 0 (hits.map (·.2))) with
  | none => exact firstIndex_none hi
  | some i =>
    obtain ⟨hit, h1, -⟩ := firstIndex_some hi
    rw [hi] at h
    simp [h1] at h

/-! ### Order-free characterisation -/

theorem damageOf_append (a b : List (ℚ × ℚ)) : damageOf (a ++ b) = damageOf a + damageOf b := by
  simp [damageOf]

theorem damageOf_nonneg {a : List (ℚ × ℚ)} (h : ∀ x ∈ a, 0 ≤ x.2) : 0 ≤ damageOf a := by
  unfold damageOf
  apply List.sum_nonneg
  intro x hx
  obtain ⟨y, hy, rfl⟩ := List.mem_map.1 hx
  exact h y hy

theorem damageOf_perm {a b : List (ℚ × ℚ)} (h : a.Perm b) : damageOf a = damageOf b :=
  (h.map _).sum_eq

theorem damageUpTo_perm {a b : List (ℚ × ℚ)} (h : a.Perm b) (T : ℚ) : damageUpTo a T = damageUpTo b T :=
  damageOf_perm (h.filter _)

theorem killsAt_perm {hp T : ℚ} {a b : List (ℚ × ℚ)} (h : a.Perm b) : KillsAt hp a T ↔ KillsAt hp b T := by
  unfold KillsAt
  simp only [damageUpTo_perm h, h.mem_iff]

theorem survives_perm {hp : ℚ} {a b : List (ℚ × ℚ)} (h : a.Perm b) : Survives hp a ↔ Survives hp b := by
  unfold Survives
  simp only [damageUpTo_perm h, h.mem_iff]

/-- In a sorted list, the hits up to the time of a hit are a prefix that contains it. -/
theorem upTo_prefix {a : List (ℚ × ℚ)} (hs : a.Pairwise fun x y => x.1 ≤ y.1) (T : ℚ) :
    a.filter (fun h => decide (h.1 ≤ T)) = a.takeWhile fun h => decide (h.1 ≤ T) := by
  induction a with
  | nil => rfl
  | cons x a ih =>
    rw [List.pairwise_cons] at hs
    by_cases hx : x.1 ≤ T
    · simp [hx, ih hs.2]
    · simp only [List.filter_cons, List.takeWhile_cons, hx, decide_false, Bool.false_eq_true, if_false]
      rw [List.filter_eq_nil_iff]
      intro y hy
      have := hs.1 y hy
      simp only [decide_eq_true_eq, not_le]
      linarith [not_le.1 hx]

theorem killsAt_of_first {hp T : ℚ} {a : List (ℚ × ℚ)} (hs : a.Pairwise fun x y => x.1 ≤ y.1)
    (hn : ∀ x ∈ a, 0 ≤ x.2) (h : FirstCrossing hp a T) : KillsAt hp a T := by
  obtain ⟨before, hit, after, rfl, rfl, h1, h2⟩ := h
  have hs' := List.pairwise_append.1 hs
  refine ⟨⟨hit, by simp, rfl⟩, ?_, ?_⟩
  · have hb : ∀ x ∈ before, x.1 ≤ hit.1 := fun x hx => hs'.2.2 x hx hit (by simp)
    have e : (before ++ hit :: after).filter (fun h => decide (h.1 ≤ hit.1)) =
        (before ++ [hit]) ++ after.filter fun h => decide (h.1 ≤ hit.1) := by
      rw [List.filter_append, List.filter_eq_self.2 (fun x hx => by simpa using hb x hx)]
      simp
    unfold damageUpTo
    rw [e, damageOf_append]
    have := damageOf_nonneg (a := after.filter fun h => decide (h.1 ≤ hit.1)) (fun x hx =>
      hn x (by simp [(List.mem_filter.1 hx).1]))
    linarith
  · intro g hg hlt
    -- hits up to an earlier time are a proper prefix
    unfold damageUpTo
    rw [upTo_prefix hs]
    have hlen : ((before ++ hit :: after).takeWhile fun h => decide (h.1 ≤ g.1)).length ≤ before.length := by
      by_contra hc
      have hp := List.takeWhile_prefix (fun h : ℚ × ℚ => decide (h.1 ≤ g.1)) (l := before ++ hit :: after)
      have hi : before.length < ((before ++ hit :: after).takeWhile fun h => decide (h.1 ≤ g.1)).length := by
        omega
      have hm := List.getElem_mem hi
      have := List.all_eq_true.1 (List.all_takeWhile (p := fun h : ℚ × ℚ => decide (h.1 ≤ g.1))
        (l := before ++ hit :: after)) _ hm
      rw [hp.getElem hi] at this
      simp at this
      linarith
    have hpre := List.takeWhile_prefix (fun h : ℚ × ℚ => decide (h.1 ≤ g.1)) (l := before ++ hit :: after)
    rw [List.prefix_iff_eq_take.1 hpre]
    have hg' : g ∈ (before ++ hit :: after).takeWhile fun h => decide (h.1 ≤ g.1) := by
      rw [← upTo_prefix hs]
      exact List.mem_filter.2 ⟨hg, by simp⟩
    have hpos := List.length_pos_of_mem hg'
    rw [List.take_append_of_le_length hlen]
    exact h2 _ hpos hlen

theorem survives_of_never {hp : ℚ} {a : List (ℚ × ℚ)} (hs : a.Pairwise fun x y => x.1 ≤ y.1)
    (h : NeverCrosses hp a) : Survives hp a := by
  intro g hg
  unfold damageUpTo
  rw [upTo_prefix hs]
  have hpre := List.takeWhile_prefix (fun h : ℚ × ℚ => decide (h.1 ≤ g.1)) (l := a)
  rw [List.prefix_iff_eq_take.1 hpre]
  have hg' : g ∈ a.takeWhile fun h => decide (h.1 ≤ g.1) := by
    rw [← upTo_prefix hs]
    exact List.mem_filter.2 ⟨hg, by simp⟩
  exact h _ (List.length_pos_of_mem hg') hpre.length_le

theorem killsAt_unique {hp T T' : ℚ} {a : List (ℚ × ℚ)} (h : KillsAt hp a T) (h' : KillsAt hp a T') :
    T = T' := by
  obtain ⟨⟨x, hx, rfl⟩, h1, h2⟩ := h
  obtain ⟨⟨y, hy, rfl⟩, h1', h2'⟩ := h'
  rcases lt_trichotomy x.1 y.1 with hlt | he | hlt
  · exact absurd h1 (not_le.2 (h2' x hx hlt))
  · exact he
  · exact absurd h1' (not_le.2 (h2 y hy hlt))

theorem not_survives {hp T : ℚ} {a : List (ℚ × ℚ)} (h : KillsAt hp a T) : ¬ Survives hp a := by
  obtain ⟨⟨x, hx, rfl⟩, h1, -⟩ := h
  exact fun hs => absurd h1 (not_le.2 (hs x hx))

theorem killsAt_mono {hp hp' T' : ℚ} (hle : hp ≤ hp') {a : List (ℚ × ℚ)} (h' : KillsAt hp' a T') :
    (∀ T, KillsAt hp a T → T ≤ T') ∧ ¬ Survives hp a := by
  obtain ⟨⟨y, hy, rfl⟩, h1', h2'⟩ := h'
  constructor
  · rintro T ⟨⟨x, hx, rfl⟩, h1, h2⟩
    by_contra hc
    exact absurd (hle.trans h1') (not_le.2 (h2 y hy (not_le.1 hc)))
  · intro hs
    exact absurd (hle.trans h1') (not_le.2 (hs y hy))

/-! ### The function `killTimes` -/

theorem pyIdx_ok {α : Type} {l : List α} {i : ℕ} {x : α} : pyIdx l i = .ok x ↔ l[i]? = some x := by
  unfold pyIdx
  cases l[i]? <;> simp

theorem zip_col (ts : List ℚ) (m : List (List ℚ)) (j : ℕ) (h : ts.length = m.length) :
    (sampleHits ts m j).map (·.2) = m.map fun row => (row[j]?).getD 0 := by
  unfold sampleHits
  rw [List.map_map]
  have e : (fun p : ℚ × ℚ => p.2) ∘ (fun p : ℚ × List ℚ => (p.1, (p.2[j]?).getD 0)) =
      (fun row : List ℚ => (row[j]?).getD 0) ∘ Prod.snd := rfl
  rw [e, ← List.map_map, List.map_snd_zip (le_of_eq h.symm)]

theorem sampleHits_get {ts : List ℚ} {m : List (List ℚ)} {j i : ℕ} {hit : ℚ × ℚ}
    (h : (sampleHits ts m j)[i]? = some hit) : ts[i]? = some hit.1 := by
  unfold sampleHits at h
  rw [List.getElem?_map] at h
  cases hz : (ts.zip m)[i]? with
  | none => rw [hz] at h; cases h
  | some p =>
    rw [hz] at h
    cases h
    rw [List.getElem?_zip_eq_some] at hz
    exact hz.1

theorem filterMap_mapM {cols : List (List ℚ)} {hp : ℚ} {ts : List ℚ} {times : List ℚ}
    (h : (cols.filterMap (firstIndex hp)).mapM (pyIdx ts) = .ok times) :
    times.map (fun t => some (t / 1000)) =
      (cols.map fun c => ((firstIndex hp c).bind fun i => ts[i]?).map (· / 1000)).filter Option.isSome := by
  induction cols generalizing times with
  | nil => cases h; rfl
  | cons c cols ih =>
    cases hc : firstIndex hp c with
    | none =>
      rw [List.filterMap_cons_none hc] at h
      simp [hc, ih h]
    | some i =>
      rw [List.filterMap_cons_some hc, List.mapM_cons] at h
      obtain ⟨t, h1, h⟩ := Py.bind_eq_ok.1 h
      obtain ⟨rest, h2, h⟩ := Py.bind_eq_ok.1 h
      cases h
      simp [hc, pyIdx_ok.1 h1, ih h2]

theorem filter_isNone_eq (ks : List (Option ℚ)) :
    ks.filter Option.isNone = List.replicate (ks.length - (ks.filter Option.isSome).length) none := by
  induction ks with
  | nil => rfl
  | cons k ks ih =>
    have hle : (ks.filter Option.isSome).length ≤ ks.length := List.length_filter_le _ _
    cases k with
    | none =>
      simp only [List.filter_cons, Option.isNone_none, if_true, ih, Option.isSome_none, Bool.false_eq_true,
        if_false, List.length_cons]
      rw [show ks.length + 1 - (ks.filter Option.isSome).length =
        (ks.length - (ks.filter Option.isSome).length) + 1 by omega, List.replicate_succ]
    | some x => simp [ih]

theorem killTimes_ok {hp : ℚ} {n : ℕ} {ts : List ℚ} {m : List (List ℚ)} (hl : ts.length = m.length)
    {kt : List (Option ℚ)} {cum : List (List ℚ)} {t' : List ℚ}
    (h : killTimes hp n ts m = .ok (kt, cum, t')) :
    t' = ts ∧ kt = packed ((List.range n).map fun j => (crossing hp (sampleHits ts m j)).map (· / 1000)) := by
  unfold killTimes at h
  obtain ⟨times, h1, h⟩ := Py.bind_eq_ok.1 h
  cases h
  refine ⟨rfl, ?_⟩
  have e1 := filterMap_mapM h1
  have e2 : ((List.range n).map fun j => cumsum 0 (m.map fun row => (row[j]?).getD 0)).map
      (fun c => ((firstIndex hp c).bind fun i => ts[i]?).map (· / 1000)) =
      (List.range n).map fun j => (crossing hp (sampleHits ts m j)).map (· / 1000) := by
    rw [List.map_map]
    refine List.map_congr_left fun j _ => ?_
    simp only [Function.comp_apply]
    unfold crossing
    rw [zip_col ts m j hl]
    cases hi : firstIndex hp (cumsum 0 (m.map fun row => (row[j]?).getD 0)) with
    | none => rfl
    | some i =>
      rw [← zip_col ts m j hl] at hi
      obtain ⟨hit, h2, -⟩ := firstIndex_some hi
      simp [h2, sampleHits_get h2]
  rw [e2] at e1
  unfold packed
  rw [e1, filter_isNone_eq]
  congr 1
  rw [← e1]
  simp only [List.length_map, List.length_range, mapM_length h1]

end KillTimeEstimator

end Ama

namespace Ama.KillTimeEstimator

open Spec
open DamageSimulator (mapM_length mapM_get)

theorem collect_ok {fuel n : ℕ} : ∀ {pairs : List (RotationBuilder × RotationChoices)}
    {acc : Option (List (List ℚ)) × List ℚ} {d : Option (List (List ℚ))} {t : List ℚ},
    collect fuel n pairs acc = .ok (d, t) →
    ∃ parts, pairs.mapM (fun p => rotationDamage fuel n p.1 p.2) = .ok parts ∧
      t = acc.2 ++ parts.flatMap (·.2) ∧
      (∀ m, d = some m → m = acc.1.getD [] ++ parts.flatMap (·.1))
  | [], acc, d, t, h => by
    cases h
    refine ⟨[], rfl, by simp, fun m hm => ?_⟩
    rw [hm]
    simp
  | (rb, c) :: rest, (a, b), d, t, h => by
    unfold collect at h
    obtain ⟨⟨m, tt⟩, h1, h⟩ := Py.bind_eq_ok.1 h
    obtain ⟨parts, h2, h3, h4⟩ := collect_ok h
    refine ⟨(m, tt) :: parts, ?_, ?_, ?_⟩
    · rw [List.mapM_cons, h1, Py.ok_bind, h2]
      rfl
    · rw [h3]
      simp
    · intro x hx
      rw [h4 x hx]
      cases a <;> simp

theorem processRows_length {n : ℕ} {c : RotationChoices} : ∀ {ps : List PerInstanceDamage} {i : ℕ}
    {rows rows' : List (List ℚ)}, processRows n c i ps rows = .ok rows' → rows'.length = rows.length
  | [], i, rows, rows', h => by
    unfold processRows at h
    cases h
    rfl
  | p :: ps, i, [], rows', h => by
    unfold processRows at h
    cases h
    rfl
  | p :: ps, i, row :: rows, rows', h => by
    unfold processRows at h
    obtain ⟨r, -, h⟩ := Py.bind_eq_ok.1 h
    obtain ⟨rs, h2, h⟩ := Py.bind_eq_ok.1 h
    cases h
    simp [processRows_length h2]

theorem rotationDamage_length {fuel n : ℕ} {rb : RotationBuilder} {c : RotationChoices}
    {p : List (List ℚ) × List ℚ} (h : rotationDamage fuel n rb c = .ok p) : p.1.length = p.2.length := by
  unfold rotationDamage at h
  obtain ⟨db, -, h⟩ := Py.bind_eq_ok.1 h
  obtain ⟨rb', -, h⟩ := Py.bind_eq_ok.1 h
  obtain ⟨⟨ins, x⟩, -, h⟩ := Py.bind_eq_ok.1 h
  obtain ⟨sim, h1, h⟩ := Py.bind_eq_ok.1 h
  obtain ⟨m, h2, h⟩ := Py.bind_eq_ok.1 h
  cases h
  have b := DamageSimulator.built h1
  simp only [processRows_length h2, List.length_map, DamageSimulator.getDamageMatrix, b.matrix,
    List.length_mapIdx, DamageSimulator.getDamageTime]

theorem flatMap_length {parts : List (List (List ℚ) × List ℚ)} (h : ∀ p ∈ parts, p.1.length = p.2.length) :
    (parts.flatMap (·.2)).length = (parts.flatMap (·.1)).length := by
  induction parts with
  | nil => rfl
  | cons p parts ih =>
    simp only [List.flatMap_cons, List.length_append]
    rw [ih fun q hq => h q (by simp [hq]), h p (by simp)]

theorem mapM_mem {α β : Type} {f : α → Py β} {l : List α} {r : List β} (h : l.mapM f = .ok r) {b : β}
    (hb : b ∈ r) : ∃ a ∈ l, f a = .ok b := by
  obtain ⟨i, hi⟩ := List.mem_iff_getElem?.1 hb
  obtain ⟨a, ha, hf⟩ := mapM_get h hi
  exact ⟨a, List.mem_of_getElem? ha, hf⟩

theorem mapM_pyIdx {α : Type} {l : List α} : ∀ {idx : List ℕ} {r : List α}, idx.mapM (pyIdx l) = .ok r →
    r.map some = idx.map fun i => l[i]?
  | [], r, h => by cases h; rfl
  | i :: idx, r, h => by
    rw [List.mapM_cons] at h
    obtain ⟨x, h1, h⟩ := Py.bind_eq_ok.1 h
    obtain ⟨xs, h2, h⟩ := Py.bind_eq_ok.1 h
    cases h
    simp [mapM_pyIdx h2, pyIdx_ok.1 h1]

theorem map_some_perm {α : Type} {l : List α} {idx : List ℕ} {r : List α}
    (hp : idx.Perm (List.range l.length)) (h : r.map some = idx.map fun i => l[i]?) : r.Perm l := by
  have h1 : (r.map some).Perm ((List.range l.length).map fun i => l[i]?) := by
    rw [h]
    exact hp.map _
  have h2 : (List.range l.length).map (fun i => l[i]?) = l.map some := by
    refine List.ext_getElem? fun i => ?_
    rw [List.getElem?_map, List.getElem?_map]
    by_cases hi : i < l.length
    · simp [hi]
    · rw [List.getElem?_eq_none (by simpa using hi), List.getElem?_eq_none (by simpa using hi)]
      rfl
  rw [h2] at h1
  have := h1.filterMap id
  simpa using this

/-- The hits of a sample in sorted order. -/
theorem hits_sorted {allT : List ℚ} {m : List (List ℚ)} (hl : allT.length = m.length) {idx : List ℕ}
    (ha : IsArgsort allT idx) {ts : List ℚ} {ms : List (List ℚ)} (ht : idx.mapM (pyIdx allT) = .ok ts)
    (hm : idx.mapM (pyIdx m) = .ok ms) (j : ℕ) :
    ts.length = ms.length ∧ ts.Perm allT ∧ ts.Pairwise (· ≤ ·) ∧ (sampleHits ts ms j).Perm (sampleHits allT m j) ∧
      (sampleHits ts ms j).map Prod.fst = ts := by
  have e1 := mapM_pyIdx ht
  have e2 := mapM_pyIdx hm
  have hlen : ts.length = ms.length := by rw [mapM_length ht, mapM_length hm]
  refine ⟨hlen, map_some_perm ha.1 e1, ?_, ?_, ?_⟩
  · have := ha.2
    rw [← e1, List.pairwise_map] at this
    exact this.imp fun h => h _ _ rfl rfl
  · refine map_some_perm (idx := idx) ?_ ?_
    · unfold sampleHits
      rw [List.length_map, List.length_zip, ← hl, min_self]
      exact ha.1
    · refine List.ext_getElem? fun i => ?_
      have g1 := congrArg (fun l => l[i]?) e1
      have g2 := congrArg (fun l => l[i]?) e2
      simp only [List.getElem?_map] at g1 g2 ⊢
      unfold sampleHits
      cases hi : idx[i]? with
      | none =>
        have h1 : ts.length ≤ i := by
          rw [mapM_length ht]
          exact List.getElem?_eq_none_iff.1 hi
        rw [List.getElem?_map, List.getElem?_eq_none (by rw [List.length_zip]; omega)]
        rfl
      | some q =>
        rw [hi] at g1 g2
        have h1 : i < ts.length := by
          rw [mapM_length ht]
          exact (List.getElem?_eq_some_iff.1 hi).1
        have hi1 := List.getElem?_eq_getElem h1
        have hi2 := List.getElem?_eq_getElem (hlen ▸ h1)
        rw [hi1] at g1
        rw [hi2] at g2
        simp only [Option.map_some, Option.some.injEq] at g1 g2
        have z1 : (ts.zip ms)[i]? = some (ts[i], ms[i]) := List.getElem?_zip_eq_some.2 ⟨hi1, hi2⟩
        have z2 : (allT.zip m)[q]? = some (ts[i], ms[i]) :=
          List.getElem?_zip_eq_some.2 ⟨g1.symm, g2.symm⟩
        rw [List.getElem?_map, z1, Option.map_some, Option.map_some, Option.map_some, List.getElem?_map, z2]
        rfl
  · unfold sampleHits
    rw [List.map_map]
    exact List.map_fst_zip (le_of_eq hlen)

/-- What `estimateKillTime` computes. -/
theorem estimate_ok {fuel n : ℕ} {k : KillTimeEstimator} {choices : List RotationChoices} {idx : List ℕ}
    {kt : List (Option ℚ)} {cum : List (List ℚ)} {ts : List ℚ}
    (h : estimateKillTime fuel n k choices idx = .ok (kt, cum, ts)) :
    ∃ parts, (k.rotations.zip choices).mapM (fun p => rotationDamage fuel n p.1 p.2) = .ok parts ∧
      (parts.flatMap (·.2)).length = (parts.flatMap (·.1)).length ∧
      ∃ ms, idx.mapM (pyIdx (parts.flatMap (·.2))) = .ok ts ∧ idx.mapM (pyIdx (parts.flatMap (·.1))) = .ok ms ∧
        kt = packed ((List.range n).map fun j => (crossing k.bossHp (sampleHits ts ms j)).map (· / 1000)) ∧
        cum = (List.range n).map fun j => cumsum 0 ((sampleHits ts ms j).map (·.2)) := by
  unfold estimateKillTime at h
  obtain ⟨⟨d, t⟩, h1, h⟩ := Py.bind_eq_ok.1 h
  obtain ⟨parts, h2, h3, h4⟩ := collect_ok h1
  cases d with
  | none => cases h
  | some m =>
    obtain ⟨t1, h5, h'⟩ := Py.bind_eq_ok.1 h
    obtain ⟨m1, h6, h8⟩ := Py.bind_eq_ok.1 h'
    clear h h'
    have hm := h4 m rfl
    simp only [List.nil_append, Option.getD_none] at h3 hm
    subst h3 hm
    have hlen := flatMap_length (parts := parts) fun p hp => by
      obtain ⟨a, -, ha⟩ := mapM_mem h2 hp
      exact rotationDamage_length ha
    have hl : t1.length = m1.length := by rw [mapM_length h5, mapM_length h6]
    obtain ⟨rfl, h7⟩ := killTimes_ok hl h8
    refine ⟨parts, h2, hlen, m1, h5, h6, h7, ?_⟩
    unfold killTimes at h8
    obtain ⟨times, -, h9⟩ := Py.bind_eq_ok.1 h8
    cases h9
    exact List.map_congr_left fun j _ => by rw [zip_col _ _ _ hl]

theorem crossing_hits_sorted {ts : List ℚ} {ms : List (List ℚ)} {j : ℕ} (hs : ts.Pairwise (· ≤ ·))
    (hf : (sampleHits ts ms j).map Prod.fst = ts) : (sampleHits ts ms j).Pairwise fun x y => x.1 ≤ y.1 := by
  rw [← hf, List.pairwise_map] at hs
  exact hs

theorem sampleHits_nonneg {ts : List ℚ} {m : List (List ℚ)} (hm : ∀ row ∈ m, ∀ x ∈ row, 0 ≤ x) (j : ℕ) :
    ∀ h ∈ sampleHits ts m j, 0 ≤ h.2 := by
  intro h hh
  unfold sampleHits at hh
  obtain ⟨p, hp, rfl⟩ := List.mem_map.1 hh
  have hrow := (List.of_mem_zip hp).2
  simp only
  cases hj : p.2[j]? with
  | none => simp
  | some x => exact hm _ hrow x (List.mem_of_getElem? hj)

end Ama.KillTimeEstimator

/-! ### Limit breaks -/

namespace Ama.KillTimeEstimator

open Spec

theorem isLb_iff {name : String} : isLb name = true ↔ NamesLb name := by
  unfold isLb NamesLb
  rw [List.any_eq_true]
  constructor
  · rintro ⟨t, ht, hp⟩
    obtain ⟨a, ha⟩ := (List.mem_tails _ _).1 ht
    obtain ⟨b, hb⟩ := List.isPrefixOf_iff_prefix.1 hp
    exact ⟨a, b, by rw [← ha, ← hb]; rfl⟩
  · rintro ⟨a, b, h⟩
    exact ⟨'L' :: 'B' :: b, (List.mem_tails _ _).2 ⟨a, h.symm⟩, List.isPrefixOf_iff_prefix.2 ⟨b, rfl⟩⟩

theorem foldl_digits (ds : List Char) (n : ℕ) :
    ds.foldl (fun n c => 10 * n + (c.toNat - '0'.toNat)) n = numberOf ds + 10 ^ ds.length * n := by
  induction ds generalizing n with
  | nil => simp [numberOf]
  | cons d ds ih =>
    rw [List.foldl_cons, ih]
    simp only [numberOf, List.reverse_cons, List.map_append, List.map_cons, List.map_nil, Nat.ofDigits_append,
      List.length_map, List.length_reverse, Nat.ofDigits_singleton, List.length_cons, pow_succ]
    ring

theorem takeWhile_digits {ds rest : List Char} (h : ∀ c ∈ ds, c.isDigit) (hr : ∀ c ∈ rest.head?, ¬ c.isDigit) :
    (ds ++ rest).takeWhile Char.isDigit = ds := by
  induction ds with
  | nil =>
    cases rest with
    | nil => rfl
    | cons c rest =>
      have := hr c (by simp)
      simp [this]
  | cons d ds ih =>
    rw [List.cons_append, List.takeWhile_cons, if_pos (h d (by simp)), ih fun c hc => h c (by simp [hc])]

theorem searchNumber_iff {pre condition : String} {N : ℕ} :
    searchNumber pre condition = some N ↔ Announces pre condition N := by
  have hpre : (pre ++ " ").toList = pre.toList ++ [' '] := by simp
  unfold searchNumber Announces
  constructor
  · intro h
    split at h
    · rename_i hp
      obtain ⟨t, ht⟩ := List.isPrefixOf_iff_prefix.1 hp
      rw [← ht, List.drop_left] at h
      unfold leadingNumber at h
      split at h
      · cases h
      · rename_i hne
        refine ⟨t.takeWhile Char.isDigit, t.dropWhile Char.isDigit, ?_, ?_, ?_, ?_, ?_⟩
        · rw [← ht, hpre]
          simp
        · intro he
          exact hne he
        · intro c hc
          exact List.all_eq_true.1 List.all_takeWhile _ hc
        · intro c hc
          have := List.head?_dropWhile_not (p := Char.isDigit) (l := t)
          rw [Option.mem_def] at hc
          rw [hc] at this
          simpa using this
        · have := foldl_digits (t.takeWhile Char.isDigit) 0
          rw [mul_zero, add_zero] at this
          rw [← this]
          exact Option.some.inj h
    · cases h
  · rintro ⟨ds, rest, h1, h2, h3, h4, rfl⟩
    have hp : condition.toList = (pre ++ " ").toList ++ (ds ++ rest) := by
      rw [h1, hpre]
      simp
    rw [hp, List.isPrefixOf_iff_prefix.2 ⟨_, rfl⟩]
    simp only [List.drop_left]
    unfold leadingNumber
    rw [takeWhile_digits h3 h4]
    cases ds with
    | nil => exact absurd rfl h2
    | cons d ds =>
      simp only [foldl_digits, mul_zero, add_zero]

theorem processRows_get {n : ℕ} {c : RotationChoices} : ∀ {ps : List PerInstanceDamage} {i : ℕ}
    {rows rows' : List (List ℚ)}, processRows n c i ps rows = .ok rows' → ∀ {k : ℕ} {p : PerInstanceDamage}
    {row : List ℚ}, ps[k]? = some p → rows[k]? = some row →
    ∃ row', rows'[k]? = some row' ∧ processRow n c (i + k) p row = .ok row'
  | [], i, rows, rows', h, k, p, row, hp, hr => by simp at hp
  | p0 :: ps, i, [], rows', h, k, p, row, hp, hr => by simp at hr
  | p0 :: ps, i, row0 :: rows, rows', h, k, p, row, hp, hr => by
    unfold processRows at h
    obtain ⟨r, h1, h⟩ := Py.bind_eq_ok.1 h
    obtain ⟨rs, h2, h⟩ := Py.bind_eq_ok.1 h
    cases h
    cases k with
    | zero =>
      simp only [List.getElem?_cons_zero, Option.some.injEq] at hp hr
      subst hp hr
      exact ⟨r, rfl, h1⟩
    | succ k =>
      simp only [List.getElem?_cons_succ] at hp hr ⊢
      obtain ⟨row', h3, h4⟩ := processRows_get h2 hp hr
      exact ⟨row', h3, by rw [← h4]; congr 1; omega⟩

theorem announces_exclusive {condition : String} {M N : ℕ}
    (h : Announces SimConsts.LB_MEAN_DAMAGE condition M) (h' : Announces SimConsts.LB_EXACT_DAMAGE condition N) :
    False := by
  obtain ⟨ds, rest, h1, -⟩ := h
  obtain ⟨ds', rest', h1', -⟩ := h'
  rw [h1] at h1'
  have := congrArg List.head? h1'
  simp [SimConsts.LB_MEAN_DAMAGE, SimConsts.LB_EXACT_DAMAGE] at this

theorem reports_length {stats : Stats} {l : List DamageInstance} {n : ℕ} {wr ws : ℕ → ℕ → Draw}
    {s : DamageSimulator} (b : DamageSimulator.Built stats l n wr ws s) :
    s.getPerSkillDamage.length = s.getDamageMatrix.length := by
  have h := DamageSimulator.mapM_length b.rows
  rw [DamageSimulator.getDamageMatrix, b.matrix, List.length_mapIdx]
  simp [DamageSimulator.getPerSkillDamage, b.mean, b.variance, h]

theorem processRow_error {n : ℕ} {c : RotationChoices} {i : ℕ} {p : PerInstanceDamage} {row : List ℚ} {e : PyErr}
    (h : processRow n c i p row = .error e) : e = .runtimeError := by
  unfold processRow getLbDamage at h
  split_ifs at h
  split at h
  · cases h
  · cases h
  · exact (Except.error.inj h).symm

theorem processRows_error {n : ℕ} {c : RotationChoices} : ∀ {ps : List PerInstanceDamage} {i : ℕ}
    {rows : List (List ℚ)} {e : PyErr}, processRows n c i ps rows = .error e → e = .runtimeError
  | [], i, rows, e, h => by
    unfold processRows at h
    cases h
  | p :: ps, i, [], e, h => by
    unfold processRows at h
    cases h
  | p :: ps, i, row :: rows, e, h => by
    unfold processRows at h
    rcases Py.bind_eq_error.1 h with h1 | ⟨r, -, h⟩
    · exact processRow_error h1
    · rcases Py.bind_eq_error.1 h with h1 | ⟨r, -, h⟩
      · exact processRows_error h1
      · cases h

end Ama.KillTimeEstimator
