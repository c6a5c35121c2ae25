import Verif.Lemmas.BestKey
import Verif.Lemmas.Strings
import Verif.Spec.Variants

/-!
# Lemmas about the AoE drop-off tables
-/

namespace Ama

open Spec

/-- Last element of maximal cardinality. -/
def lastMax (l : List Conds) : Option Conds :=
  l.foldl (fun acc k =>
    match acc with
    | none => some k
    | some b => if b.card ≤ k.card then some k else some b) none

theorem lastBest_eq_lastMax (W : Conds) (keys : List Conds) :
    lastBest W keys = lastMax (keys.filter (fun k => decide (k ⊆ W))) := by
  unfold lastBest lastMax
  generalize (none : Option Conds) = acc
  induction keys generalizing acc with
  | nil => rfl
  | cons k keys ih =>
    by_cases hk : k ⊆ W
    · simp only [List.foldl_cons, hk, if_true, List.filter_cons, decide_true, ih]
      cases acc <;> rfl
    · simp [hk, ih]

theorem lastMax_append_singleton (l : List Conds) (k : Conds) :
    lastMax (l ++ [k]) =
      match lastMax l with
      | none => some k
      | some b => if b.card ≤ k.card then some k else some b := by
  simp [lastMax]

theorem lastMax_eq_none {l : List Conds} : lastMax l = none ↔ l = [] := by
  induction l using List.reverseRecOn with
  | nil => simp [lastMax]
  | append_singleton l k ih =>
    rw [lastMax_append_singleton]
    cases lastMax l with
    | none => simp
    | some b =>
      simp only [List.append_eq_nil_iff, List.cons_ne_self, and_false, iff_false]
      split_ifs <;> simp

theorem lastMax_append (l l' : List Conds) :
    lastMax (l ++ l') =
      match lastMax l, lastMax l' with
      | none, r => r
      | some b, none => some b
      | some b, some b' => if b.card ≤ b'.card then some b' else some b := by
  induction l' using List.reverseRecOn with
  | nil => cases h : lastMax l <;> simp [lastMax] at h ⊢ <;> simp [h]
  | append_singleton l' k ih =>
    rw [← List.append_assoc, lastMax_append_singleton, ih, lastMax_append_singleton]
    cases lastMax l with
    | none =>
      cases lastMax l' <;> simp
    | some b =>
      cases lastMax l' with
      | none => simp
      | some b' =>
        simp only
        by_cases h1 : b.card ≤ b'.card
        · by_cases h2 : b'.card ≤ k.card
          · simp [h1, h2, h1.trans h2]
          · simp [h1, h2]
        · by_cases h2 : b'.card ≤ k.card
          · simp [h1, h2]
          · have : ¬ b.card ≤ k.card := by omega
            simp [h1, h2, this]

theorem lastMax_mem {l : List Conds} {b : Conds} (h : lastMax l = some b) : b ∈ l := by
  induction l using List.reverseRecOn generalizing b with
  | nil => simp [lastMax] at h
  | append_singleton l k ih =>
    rw [lastMax_append_singleton] at h
    cases hl : lastMax l with
    | none =>
      rw [hl] at h
      cases h
      simp
    | some c =>
      rw [hl] at h
      simp only at h
      split_ifs at h <;> cases h
      · simp
      · simp [ih hl]

theorem lastMax_map (f : Conds → Conds) (l : List Conds)
    (hf : ∀ k ∈ l, (f k).card = k.card + 1) : lastMax (l.map f) = (lastMax l).map f := by
  induction l using List.reverseRecOn with
  | nil => simp [lastMax]
  | append_singleton l k ih =>
    have ih := ih (fun k' hk' => hf k' (by simp [hk']))
    rw [List.map_append, List.map_singleton, lastMax_append_singleton, lastMax_append_singleton, ih]
    cases hl : lastMax l with
    | none => simp
    | some b =>
      have hb := hf b (by simp [lastMax_mem hl])
      have hk := hf k (by simp)
      simp only [Option.map_some, hb, hk, Nat.add_le_add_iff_right]
      split_ifs <;> simp

/-- The target numbers for which a drop-off variant is generated. -/
def dropTargets : List ℕ := [2, 3, 4, 5, 6, 7, 8, 9]

theorem canonicalize_targetCond {n : ℕ} (hn : n ∈ dropTargets) :
    Utils.canonicalizeCondition (targetCond n) = {targetCond n} := by
  have : ∀ n ∈ dropTargets, Utils.canonicalizeCondition (targetCond n) = {targetCond n} := by
    decide +kernel
  exact this n hn

theorem canonicalize_dropoffKey (k : String) {n : ℕ} (hn : n ∈ dropTargets) :
    Utils.canonicalizeCondition (dropoffKey k n) =
      insert (targetCond n) (Utils.canonicalizeCondition k) := by
  by_cases hk : k = ""
  · subst hk
    have : dropoffKey "" n = targetCond n := by
      unfold dropoffKey targetCond
      rw [← String.toList_inj]
      simp
    rw [this, canonicalize_targetCond hn]
    simp [Utils.canonicalizeCondition]
  · have hlen : k.toList.length > 0 := by
      rw [gt_iff_lt, Nat.pos_iff_ne_zero]
      intro h0
      apply hk
      rw [← String.toList_inj]
      simpa using List.length_eq_zero_iff.1 h0
    have : dropoffKey k n = k ++ ", " ++ targetCond n := by
      unfold dropoffKey targetCond
      rw [if_pos hlen, ← String.toList_inj]
      simp
    have ht : targetCond n ≠ "" := by
      have : ∀ n ∈ dropTargets, targetCond n ≠ "" := by decide +kernel
      exact this n hn
    rw [this, canonicalize_append k _ hk ht, canonicalize_targetCond hn]
    rw [Finset.union_comm]
    rfl

/-- The variant generated for a secondary target. -/
def dropSpec (x : ℚ) (s : DamageSpec) : DamageSpec := { s with potency := (1 - x) * s.potency }

section

variable {κ ν : Type} [DecidableEq κ]

theorem Dict.set_fresh {d : Dict κ ν} {k : κ} {v : ν} (h : k ∉ Dict.keys d) :
    Dict.set d k v = d ++ [(k, v)] := by
  induction d with
  | nil => rfl
  | cons p d ih =>
    obtain ⟨k', v'⟩ := p
    simp only [Dict.keys, List.map_cons, List.mem_cons, not_or] at h
    simp only [Dict.set, Ne.symm h.1, if_false, List.cons_append]
    rw [ih h.2]

theorem Dict.get?_append_of_mem {d d' : Dict κ ν} {k : κ} (h : k ∈ Dict.keys d) :
    Dict.get? (d ++ d') k = Dict.get? d k := by
  induction d with
  | nil => simp [Dict.keys] at h
  | cons p d ih =>
    obtain ⟨k', v'⟩ := p
    simp only [List.cons_append, Dict.get?_cons]
    split_ifs with hk
    · rfl
    · apply ih
      simpa [Dict.keys, Ne.symm hk] using h

theorem Dict.get?_append_of_not_mem {d d' : Dict κ ν} {k : κ} (h : k ∉ Dict.keys d) :
    Dict.get? (d ++ d') k = Dict.get? d' k := by
  induction d with
  | nil => rfl
  | cons p d ih =>
    obtain ⟨k', v'⟩ := p
    simp only [Dict.keys, List.map_cons, List.mem_cons, not_or] at h
    simp only [List.cons_append, Dict.get?_cons, Ne.symm h.1, if_false]
    exact ih h.2

end

/-- The rows appended for one declared variant. -/
def dropRows (x : ℚ) (k : String) (s : DamageSpec) : Dict String (Option DamageSpec) :=
  dropTargets.map (fun n => (dropoffKey k n, some (dropSpec x s)))

/-- The rows appended for a table of variants. -/
def allDropRows (x : ℚ) : List (String × DamageSpec) → Dict String (Option DamageSpec)
  | [] => []
  | (k, s) :: l => dropRows x k s ++ allDropRows x l

theorem keys_append {κ ν : Type} (d d' : Dict κ ν) :
    Dict.keys (d ++ d') = Dict.keys d ++ Dict.keys d' := by
  simp [Dict.keys]

/-- Generic inner loop: when the generated keys are fresh, rows are appended. -/
theorem dropoff_inner (x : ℚ) (k : String) (s : DamageSpec) (ns : List ℕ) :
    ∀ (d : Dict String (Option DamageSpec)), Dict.get? d k = some (some s) →
      (Dict.keys d ++ ns.map (dropoffKey k)).Nodup →
      ns.foldlM (dropoffStep x k) d =
        .ok (d ++ ns.map (fun n => (dropoffKey k n, some (dropSpec x s)))) := by
  induction ns with
  | nil => intro d _ _; simp [Py.foldlM_nil]
  | cons n ns ih =>
    intro d hd hnd
    have hk : k ∈ Dict.keys d := Dict.get?_isSome.1 (by simp [hd])
    have hfresh : dropoffKey k n ∉ Dict.keys d := by
      intro hmem
      rw [List.nodup_append] at hnd
      exact hnd.2.2 _ hmem _ (by simp) rfl
    have hstep : dropoffStep x k d n =
        .ok (d ++ [(dropoffKey k n, some (dropSpec x s))]) := by
      unfold dropoffStep
      rw [Dict.get_ok.2 hd]
      simp [Dict.set_fresh hfresh, dropSpec]
    rw [Py.foldlM_cons, hstep, Py.ok_bind, ih]
    · simp
    · rw [Dict.get?_append_of_mem hk]
      exact hd
    · rw [keys_append]
      simpa [Dict.keys, List.append_assoc] using hnd

theorem dropoff_outer (x : ℚ) (l : List (String × DamageSpec)) :
    ∀ (e : Dict String (Option DamageSpec)), (∀ ks ∈ l, Dict.get? e ks.1 = some (some ks.2)) →
      (Dict.keys e ++ Dict.keys (allDropRows x l)).Nodup →
      (l.map Prod.fst).foldlM
        (fun d key => dropTargets.foldlM (dropoffStep x key) d) e =
        .ok (e ++ allDropRows x l) := by
  induction l with
  | nil => intro e _ _; simp [Py.foldlM_nil, allDropRows]
  | cons ks l ih =>
    obtain ⟨k, s⟩ := ks
    intro e he hnd
    have hkeys : Dict.keys (dropRows x k s) = dropTargets.map (dropoffKey k) := by
      simp [dropRows, Dict.keys]
    simp only [allDropRows, keys_append] at hnd
    rw [List.map_cons, Py.foldlM_cons]
    rw [dropoff_inner x k s dropTargets e (he (k, s) (by simp)) (by
      rw [← hkeys]
      rw [← List.append_assoc] at hnd
      exact (List.nodup_append.1 hnd).1)]
    rw [Py.ok_bind]
    have := ih (e ++ dropRows x k s) (by
      intro ks hks
      have hks' := he ks (by simp [hks])
      rw [Dict.get?_append_of_mem (Dict.get?_isSome.1 (by simp [hks']))]
      exact hks') (by
      rw [keys_append, List.append_assoc]
      exact hnd)
    simpa [dropRows, allDropRows] using this

theorem allDropRows_keys (x : ℚ) (l : List (String × DamageSpec)) :
    Dict.keys (allDropRows x l) = l.flatMap (fun ks => dropTargets.map (dropoffKey ks.1)) := by
  induction l with
  | nil => rfl
  | cons ks l ih =>
    obtain ⟨k, s⟩ := ks
    simp only [allDropRows, keys_append, ih, List.flatMap_cons]
    congr 1

theorem foldl_set_fresh {α : Type} (l : Dict String α) :
    ∀ (e : Dict Conds α),
      (Dict.keys e ++ l.map (fun kv => Utils.canonicalizeCondition kv.1)).Nodup →
      l.foldl (fun tmp kv => Dict.set tmp (Utils.canonicalizeCondition kv.1) kv.2) e =
        e ++ l.map (fun kv => (Utils.canonicalizeCondition kv.1, kv.2)) := by
  induction l with
  | nil => intro e _; simp
  | cons kv l ih =>
    intro e hnd
    have hfresh : Utils.canonicalizeCondition kv.1 ∉ Dict.keys e := by
      intro hmem
      rw [List.nodup_append] at hnd
      exact hnd.2.2 _ hmem _ (by simp) rfl
    rw [List.foldl_cons, Dict.set_fresh hfresh, ih]
    · simp
    · rw [keys_append]
      simpa [Dict.keys, List.append_assoc] using hnd

/-- Canonicalising a table with distinct variants keeps its rows. -/
theorem canonicalizeDict_distinct {α : Type} {d : Dict String α} (h : DistinctVariants d) :
    canonicalizeDict d = d.map (fun kv => (Utils.canonicalizeCondition kv.1, kv.2)) := by
  have := foldl_set_fresh d [] (by
    rw [DistinctVariants] at h
    simpa [Dict.keys] using h)
  simpa [canonicalizeDict] using this

/-- Sets of conditions of the generated rows. -/
def dropConds (Ks : List Conds) : List Conds :=
  Ks.flatMap (fun K => dropTargets.map (fun n => insert (targetCond n) K))

theorem targetCond_inj {n m : ℕ} (hn : n ∈ dropTargets) (hm : m ∈ dropTargets)
    (h : targetCond n = targetCond m) : n = m := by
  have : ∀ n ∈ dropTargets, ∀ m ∈ dropTargets, targetCond n = targetCond m → n = m := by
    decide +kernel
  exact this n hn m hm h

theorem allDropRows_conds (x : ℚ) (l : List (String × DamageSpec)) :
    (allDropRows x l).map (fun kv => Utils.canonicalizeCondition kv.1) =
      dropConds (l.map (fun ks => Utils.canonicalizeCondition ks.1)) := by
  induction l with
  | nil => rfl
  | cons ks l ih =>
    obtain ⟨k, s⟩ := ks
    simp only [allDropRows, List.map_append, ih, List.map_cons, dropConds, List.flatMap_cons]
    congr 1
    simp only [dropRows, List.map_map]
    apply List.map_congr_left
    intro n hn
    exact canonicalize_dropoffKey k hn

/-- No declared variant mentions a secondary target. -/
def NoTargets (Ks : List Conds) : Prop := ∀ K ∈ Ks, ∀ n ∈ dropTargets, targetCond n ∉ K

theorem erase_insert_target {K : Conds} {n : ℕ} (h : targetCond n ∉ K) :
    (insert (targetCond n) K).erase (targetCond n) = K := Finset.erase_insert h

theorem nodup_dropConds {Ks : List Conds} (hn : Ks.Nodup) (ht : NoTargets Ks) :
    (Ks ++ dropConds Ks).Nodup := by
  have key : ∀ K ∈ Ks, ∀ K' ∈ Ks, ∀ n ∈ dropTargets, ∀ m ∈ dropTargets,
      insert (targetCond n) K = insert (targetCond m) K' → n = m ∧ K = K' := by
    intro K hK K' hK' n hn m hm he
    have hnm : n = m := by
      have : targetCond n ∈ insert (targetCond m) K' := by rw [← he]; simp
      rcases Finset.mem_insert.1 this with h | h
      · exact targetCond_inj hn hm h
      · exact absurd h (ht K' hK' n hn)
    subst hnm
    refine ⟨rfl, ?_⟩
    rw [← erase_insert_target (ht K hK n hn), he, erase_insert_target (ht K' hK' n hn)]
  have hd : (dropConds Ks).Nodup := by
    unfold dropConds
    rw [List.nodup_flatMap]
    refine ⟨?_, ?_⟩
    · intro K hK
      apply List.Nodup.map_on
      · intro n hn' m hm' he
        exact (key K hK K hK n hn' m hm' he).1
      · decide
    · refine List.Pairwise.imp_of_mem ?_ hn
      intro K K' hK hK' hne
      intro J hJ hJ'
      obtain ⟨n, hn', rfl⟩ := List.mem_map.1 hJ
      obtain ⟨m, hm', he⟩ := List.mem_map.1 hJ'
      exact hne (key K' hK' K hK m hm' n hn' he).2.symm
  rw [List.nodup_append]
  refine ⟨hn, hd, ?_⟩
  intro K hK J hJ hKJ
  subst hKJ
  unfold dropConds at hJ
  obtain ⟨K', hK', hJ⟩ := List.mem_flatMap.1 hJ
  obtain ⟨n, hn', he⟩ := List.mem_map.1 hJ
  exact ht K hK n hn' (by rw [← he]; simp)

/-- Which keys match once target `n` is added to conditions that mention no secondary target. -/
theorem filter_drop {Ks : List Conds} {W : Conds} (ht : NoTargets Ks)
    (hW : ∀ m ∈ dropTargets, targetCond m ∉ W) {n : ℕ} (hn : n ∈ dropTargets) :
    (Ks ++ dropConds Ks).filter (fun k => decide (k ⊆ insert (targetCond n) W)) =
      Ks.filter (fun k => decide (k ⊆ W)) ++
        (Ks.filter (fun k => decide (k ⊆ W))).map (fun K => insert (targetCond n) K) := by
  rw [List.filter_append]
  congr 1
  · apply List.filter_congr
    intro K hK
    simp only [decide_eq_decide]
    constructor
    · intro h c hc
      rcases Finset.mem_insert.1 (h hc) with rfl | h'
      · exact absurd hc (ht K hK n hn)
      · exact h'
    · intro h
      exact h.trans (Finset.subset_insert _ _)
  · unfold dropConds
    induction Ks with
    | nil => rfl
    | cons K Ks ih =>
      have ih := ih (fun K' hK' => ht K' (by simp [hK']))
      rw [List.flatMap_cons, List.filter_append, ih]
      have hhead : (dropTargets.map (fun m => insert (targetCond m) K)).filter
          (fun k => decide (k ⊆ insert (targetCond n) W)) =
          if K ⊆ W then [insert (targetCond n) K] else [] := by
        have hmatch : ∀ m ∈ dropTargets, (insert (targetCond m) K ⊆ insert (targetCond n) W ↔
            m = n ∧ K ⊆ W) := by
          intro m hm
          constructor
          · intro h
            constructor
            · have : targetCond m ∈ insert (targetCond n) W := h (by simp)
              rcases Finset.mem_insert.1 this with h' | h'
              · exact targetCond_inj hm hn h'
              · exact absurd h' (hW m hm)
            · intro c hc
              rcases Finset.mem_insert.1 (h (Finset.mem_insert_of_mem hc)) with rfl | h'
              · exact absurd hc (ht K (by simp) n hn)
              · exact h'
          · rintro ⟨rfl, h⟩
            exact Finset.insert_subset_insert _ h
        rw [List.filter_map]
        have hf : dropTargets.filter
            ((fun k => decide (k ⊆ insert (targetCond n) W)) ∘ fun m => insert (targetCond m) K) =
            dropTargets.filter (fun m => decide (m = n ∧ K ⊆ W)) := by
          apply List.filter_congr
          intro m hm
          simp only [Function.comp, decide_eq_decide]
          exact hmatch m hm
        rw [hf]
        by_cases hKW : K ⊆ W
        · simp only [hKW, and_true, if_true]
          have : dropTargets.filter (fun m => decide (m = n)) = [n] := by
            have : ∀ n ∈ dropTargets, dropTargets.filter (fun m => decide (m = n)) = [n] := by
              decide +kernel
            exact this n hn
          rw [this]
          rfl
        · simp [hKW]
      rw [hhead]
      by_cases hKW : K ⊆ W
      · simp [hKW]
      · simp [hKW]

/-- The best key with target `n` is the best key without it, plus the target. -/
theorem lastBest_drop {Ks : List Conds} {W : Conds} (ht : NoTargets Ks)
    (hW : ∀ m ∈ dropTargets, targetCond m ∉ W) {n : ℕ} (hn : n ∈ dropTargets) :
    lastBest (insert (targetCond n) W) (Ks ++ dropConds Ks) =
      (lastBest W Ks).map (fun K => insert (targetCond n) K) := by
  rw [lastBest_eq_lastMax, filter_drop ht hW hn, lastMax_append, lastBest_eq_lastMax]
  have hcard : ∀ k ∈ Ks.filter (fun k => decide (k ⊆ W)),
      (insert (targetCond n) k).card = k.card + 1 := by
    intro k hk
    exact Finset.card_insert_of_notMem (ht k (List.mem_filter.1 hk).1 n hn)
  rw [lastMax_map _ _ hcard]
  cases h : lastMax (Ks.filter (fun k => decide (k ⊆ W))) with
  | none => simp
  | some b =>
    have := hcard b (lastMax_mem h)
    simp [this]

/-- Without a target, the generated rows never match. -/
theorem lastBest_nodrop {Ks : List Conds} {W : Conds}
    (hW : ∀ m ∈ dropTargets, targetCond m ∉ W) :
    lastBest W (Ks ++ dropConds Ks) = lastBest W Ks := by
  rw [lastBest_eq_lastMax, lastBest_eq_lastMax, List.filter_append]
  have : (dropConds Ks).filter (fun k => decide (k ⊆ W)) = [] := by
    rw [List.filter_eq_nil_iff]
    intro J hJ
    unfold dropConds at hJ
    obtain ⟨K', hK', hJ⟩ := List.mem_flatMap.1 hJ
    obtain ⟨n, hn', rfl⟩ := List.mem_map.1 hJ
    simp only [decide_eq_true_eq]
    intro h
    exact hW n hn' (h (by simp))
  rw [this, List.append_nil]

/-- The final table of a skill with AoE drop-off. -/
theorem mkSkill_dropoff {r : RawSkill} {s : Skill} {x : ℚ} {l : List (String × DamageSpec)}
    (h : mkSkill r = .ok s) (hx : r.aoeDropoff = some x)
    (hr : r.damageSpec = .dict (l.map (fun ks => (ks.1, some ks.2))))
    (hd : DistinctVariants l)
    (ht : NoTargets (l.map (fun ks => Utils.canonicalizeCondition ks.1))) :
    s.damageSpec = .dict
      (l.map (fun ks => (Utils.canonicalizeCondition ks.1, some ks.2)) ++
        (allDropRows x l).map (fun kv => (Utils.canonicalizeCondition kv.1, kv.2))) := by
  set d : Dict String (Option DamageSpec) := l.map (fun ks => (ks.1, some ks.2)) with hdd
  have hcn := nodup_dropConds hd ht
  have hcanon : DistinctVariants (d ++ allDropRows x l) := by
    unfold DistinctVariants
    rw [List.map_append, allDropRows_conds]
    simpa [hdd, Function.comp_def] using hcn
  have hkn : (Dict.keys d ++ Dict.keys (allDropRows x l)).Nodup := by
    have := hcanon
    unfold DistinctVariants at this
    rw [← keys_append]
    have e : (d ++ allDropRows x l).map (fun kv => Utils.canonicalizeCondition kv.1) =
        (Dict.keys (d ++ allDropRows x l)).map Utils.canonicalizeCondition := by
      simp [Dict.keys, Function.comp_def]
    rw [e] at this
    exact List.Nodup.of_map _ this
  have hget : ∀ ks ∈ l, Dict.get? d ks.1 = some (some ks.2) := by
    intro ks hks
    apply Dict.get?_of_mem
    · exact (List.nodup_append.1 hkn).1
    · rw [hdd]
      exact List.mem_map.2 ⟨ks, hks, rfl⟩
  have hproc : processAoeDropoffDict x d = .ok (d ++ allDropRows x l) := by
    unfold processAoeDropoffDict
    have e : Dict.keys d = l.map Prod.fst := by simp [hdd, Dict.keys]
    rw [e]
    exact dropoff_outer x l d hget hkn
  unfold mkSkill at h
  rw [hx, hr] at h
  simp only [processAoeDropoff, hproc, Py.ok_bind, Py.pure_eq, Except.ok.injEq] at h
  rw [← h]
  simp only [RawCond.canonicalize]
  rw [canonicalizeDict_distinct hcanon, List.map_append]
  simp [hdd]

end Ama
