import Verif.Py.Dict
import Mathlib.Data.List.Nodup
import Mathlib.Data.List.Perm.Basic
import Mathlib.Order.Lattice

/-!
# Lemmas about the Python runtime fragment
-/

namespace Ama

namespace Py

variable {α β : Type}

@[simp] theorem ok_bind (a : α) (f : α → Py β) : ((Except.ok a : Py α) >>= f) = f a := rfl

@[simp] theorem error_bind (e : PyErr) (f : α → Py β) :
    ((Except.error e : Py α) >>= f) = Except.error e := rfl

@[simp] theorem pure_eq (a : α) : (pure a : Py α) = Except.ok a := rfl

theorem bind_eq_ok {x : Py α} {f : α → Py β} {b : β} :
    (x >>= f) = .ok b ↔ ∃ a, x = .ok a ∧ f a = .ok b := by
  cases x with
  | error e => simp
  | ok a => simp

theorem bind_eq_error {x : Py α} {f : α → Py β} {e : PyErr} :
    (x >>= f) = .error e ↔ x = .error e ∨ ∃ a, x = .ok a ∧ f a = .error e := by
  cases x with
  | error e' => simp
  | ok a => simp

theorem foldlM_nil {σ : Type} (f : σ → α → Py σ) (s : σ) : List.foldlM f s [] = .ok s := rfl

theorem foldlM_cons {σ : Type} (f : σ → α → Py σ) (s : σ) (a : α) (l : List α) :
    List.foldlM f s (a :: l) = (f s a >>= fun s' => List.foldlM f s' l) := rfl

theorem foldlM_append {σ : Type} (f : σ → α → Py σ) (s : σ) (l l' : List α) :
    List.foldlM f s (l ++ l') = (List.foldlM f s l >>= fun s' => List.foldlM f s' l') := by
  induction l generalizing s with
  | nil => rfl
  | cons a l ih =>
    simp only [List.cons_append, foldlM_cons]
    cases f s a with
    | error e => rfl
    | ok s' => exact ih s'

/-- Invariant rule for `foldlM`. -/
theorem foldlM_inv {σ : Type} {f : σ → α → Py σ} {P : σ → Prop} {l : List α} {s s' : σ}
    (h0 : P s) (hstep : ∀ s a s', a ∈ l → P s → f s a = .ok s' → P s')
    (heq : List.foldlM f s l = .ok s') : P s' := by
  induction l generalizing s with
  | nil =>
    cases heq
    exact h0
  | cons a l ih =>
    rw [foldlM_cons, bind_eq_ok] at heq
    obtain ⟨s1, h1, h2⟩ := heq
    exact ih (hstep s a s1 (by simp) h0 h1)
      (fun s a s' ha => hstep s a s' (by simp [ha])) h2

end Py

namespace Dict

variable {κ ν : Type} [DecidableEq κ]

@[simp] theorem get?_nil (q : κ) : get? ([] : Dict κ ν) q = none := rfl

theorem get?_cons (k : κ) (v : ν) (d : Dict κ ν) (q : κ) :
    get? ((k, v) :: d) q = if k = q then some v else get? d q := rfl

theorem get?_set (d : Dict κ ν) (k q : κ) (v : ν) :
    get? (set d k v) q = if k = q then some v else get? d q := by
  induction d with
  | nil => simp [set, get?_cons]
  | cons p d ih =>
    obtain ⟨k', v'⟩ := p
    simp only [set]
    split_ifs with h1 h2 h2
    · simp [get?_cons, h1, h2]
    · have : ¬ k' = q := by rw [h1]; exact h2
      simp [get?_cons, this]
    · have : ¬ k' = q := by rw [← h2]; exact h1
      rw [get?_cons, if_neg this, ih, if_pos h2]
    · simp [get?_cons, ih, h2]

@[simp] theorem get?_set_self (d : Dict κ ν) (k : κ) (v : ν) : get? (set d k v) k = some v := by
  simp [get?_set]

theorem get?_set_ne (d : Dict κ ν) {k q : κ} (v : ν) (h : k ≠ q) :
    get? (set d k v) q = get? d q := by
  simp [get?_set, h]

theorem get?_eq_none {d : Dict κ ν} {k : κ} : get? d k = none ↔ k ∉ keys d := by
  induction d with
  | nil => simp [keys]
  | cons p d ih =>
    obtain ⟨k', v'⟩ := p
    simp only [get?_cons, keys, List.map_cons, List.mem_cons, not_or]
    split_ifs with h
    · simp [h]
    · rw [ih]
      simp [keys, Ne.symm h]

theorem get?_isSome {d : Dict κ ν} {k : κ} : (get? d k).isSome ↔ k ∈ keys d := by
  rw [← not_iff_not, ← get?_eq_none]
  simp

theorem mem_iff {d : Dict κ ν} {k : κ} : mem d k = true ↔ k ∈ keys d := get?_isSome

theorem mem_of_get? {d : Dict κ ν} {k : κ} {v : ν} (h : get? d k = some v) : (k, v) ∈ d := by
  induction d with
  | nil => simp at h
  | cons p d ih =>
    obtain ⟨k', v'⟩ := p
    rw [get?_cons] at h
    split_ifs at h with hk
    · cases h
      simp [hk]
    · simp [ih h]

theorem get?_of_mem {d : Dict κ ν} (hn : (keys d).Nodup) {k : κ} {v : ν} (h : (k, v) ∈ d) :
    get? d k = some v := by
  induction d with
  | nil => simp at h
  | cons p d ih =>
    obtain ⟨k', v'⟩ := p
    simp only [keys, List.map_cons, List.nodup_cons] at hn
    rw [get?_cons]
    rcases List.mem_cons.1 h with heq | h
    · cases heq
      simp
    · have : k' ≠ k := by
        rintro rfl
        exact hn.1 (List.mem_map.2 ⟨_, h, rfl⟩)
      simp [this, ih hn.2 h]

theorem get_ok {d : Dict κ ν} {k : κ} {v : ν} : get d k = .ok v ↔ get? d k = some v := by
  unfold get
  cases get? d k <;> simp

theorem get_error {d : Dict κ ν} {k : κ} {e : PyErr} :
    get d k = .error e ↔ e = .keyError ∧ k ∉ keys d := by
  unfold get
  rw [← get?_eq_none]
  cases get? d k <;> simp [eq_comm]

theorem keys_set (d : Dict κ ν) (k : κ) (v : ν) :
    keys (set d k v) = if k ∈ keys d then keys d else keys d ++ [k] := by
  induction d with
  | nil => simp [set, keys]
  | cons p d ih =>
    obtain ⟨k', v'⟩ := p
    simp only [set]
    by_cases h : k' = k
    · simp [h, keys]
    · simp only [h, if_false, keys, List.map_cons, List.mem_cons, Ne.symm h, false_or] at ih ⊢
      rw [ih]
      by_cases hk : k ∈ List.map Prod.fst d <;> simp only [hk, if_true, if_false, List.cons_append]

theorem mem_keys_set {d : Dict κ ν} {k q : κ} {v : ν} :
    q ∈ keys (set d k v) ↔ q = k ∨ q ∈ keys d := by
  rw [keys_set]
  split_ifs with h
  · constructor
    · exact Or.inr
    · rintro (rfl | h')
      · exact h
      · exact h'
  · simp [or_comm]

theorem nodup_set {d : Dict κ ν} (h : (keys d).Nodup) (k : κ) (v : ν) : (keys (set d k v)).Nodup := by
  rw [keys_set]
  split_ifs with hk
  · exact h
  · rw [List.nodup_append]
    refine ⟨h, by simp, ?_⟩
    intro a ha b hb
    simp at hb
    rintro rfl
    subst hb
    exact hk ha

theorem keys_del_sublist (d : Dict κ ν) (k : κ) : (keys (del d k)).Sublist (keys d) := by
  induction d with
  | nil => simp [del, keys]
  | cons p d ih =>
    obtain ⟨k', v'⟩ := p
    simp only [del]
    split_ifs
    · simp [keys]
    · simpa [keys] using ih

theorem nodup_del {d : Dict κ ν} (h : (keys d).Nodup) (k : κ) : (keys (del d k)).Nodup :=
  h.sublist (keys_del_sublist d k)

theorem get?_del {d : Dict κ ν} (h : (keys d).Nodup) (k q : κ) :
    get? (del d k) q = if k = q then none else get? d q := by
  induction d with
  | nil => simp [del]
  | cons p d ih =>
    obtain ⟨k', v'⟩ := p
    simp only [keys, List.map_cons, List.nodup_cons] at h
    simp only [del]
    by_cases h1 : k' = k
    · simp only [h1, if_true, get?_cons]
      split_ifs with h2
      · subst h2
        rw [get?_eq_none]
        rw [← h1]
        exact h.1
      · rfl
    · simp only [h1, if_false, get?_cons, ih h.2]
      split_ifs with h2 h3 h3
      · exact absurd (h2.trans h3.symm) h1
      · rfl
      · rfl
      · rfl

/-- Two dictionaries without duplicate keys, same key order and same values are equal. -/
theorem ext_get? {d d' : Dict κ ν} (hk : keys d = keys d') (hn : (keys d).Nodup)
    (hv : ∀ k ∈ keys d, get? d k = get? d' k) : d = d' := by
  induction d generalizing d' with
  | nil =>
    cases d' with
    | nil => rfl
    | cons p d' => simp [keys] at hk
  | cons p d ih =>
    cases d' with
    | nil => simp [keys] at hk
    | cons p' d' =>
      obtain ⟨k, v⟩ := p
      obtain ⟨k', v'⟩ := p'
      simp only [keys, List.map_cons, List.cons.injEq] at hk
      obtain ⟨rfl, hk⟩ := hk
      simp only [keys, List.map_cons, List.nodup_cons] at hn
      have h0 := hv k (by simp [keys])
      simp [get?_cons] at h0
      subst h0
      congr 1
      apply ih hk hn.2
      intro q hq
      have := hv q (by simp only [keys, List.map_cons, List.mem_cons]; exact Or.inr hq)
      have hne : k ≠ q := by
        rintro rfl
        exact hn.1 hq
      simpa [get?_cons, hne] using this

end Dict

/-! ## Stable sort -/

section Sorting

variable {α K : Type} [LinearOrder K] (key : α → K)

theorem insertBy_perm (a : α) (l : List α) : (insertBy key a l).Perm (a :: l) := by
  induction l with
  | nil => simp [insertBy]
  | cons b l ih =>
    simp only [insertBy]
    split_ifs
    · exact List.Perm.refl _
    · exact (ih.cons b).trans (List.Perm.swap a b l)

theorem sortBy_perm (l : List α) : (sortBy key l).Perm l := by
  induction l with
  | nil => simp [sortBy]
  | cons a l ih =>
    simp only [sortBy]
    exact (insertBy_perm key a _).trans (ih.cons a)

@[simp] theorem mem_sortBy {a : α} {l : List α} : a ∈ sortBy key l ↔ a ∈ l :=
  (sortBy_perm key l).mem_iff

@[simp] theorem length_sortBy (l : List α) : (sortBy key l).length = l.length :=
  (sortBy_perm key l).length_eq

theorem insertBy_sorted (a : α) {l : List α} (h : l.Pairwise (fun x y => key x ≤ key y)) :
    (insertBy key a l).Pairwise (fun x y => key x ≤ key y) := by
  induction l with
  | nil => simp [insertBy]
  | cons b l ih =>
    simp only [insertBy]
    rw [List.pairwise_cons] at h
    split_ifs with hab
    · rw [List.pairwise_cons]
      refine ⟨?_, List.pairwise_cons.2 h⟩
      intro c hc
      rcases List.mem_cons.1 hc with rfl | hc
      · exact hab
      · exact hab.trans (h.1 c hc)
    · rw [List.pairwise_cons]
      refine ⟨?_, ih h.2⟩
      intro c hc
      rcases List.mem_cons.1 ((insertBy_perm key a l).mem_iff.1 hc) with rfl | hc
      · exact le_of_not_ge hab
      · exact h.1 c hc

theorem sortBy_sorted (l : List α) : (sortBy key l).Pairwise (fun x y => key x ≤ key y) := by
  induction l with
  | nil => simp [sortBy]
  | cons a l ih => exact insertBy_sorted key a ih

theorem insertBy_of_le {a : α} {l : List α} (h : ∀ b ∈ l, key a ≤ key b) :
    insertBy key a l = a :: l := by
  cases l with
  | nil => rfl
  | cons b l => simp [insertBy, h b (by simp)]

/-- Sorting a sorted list does nothing. -/
theorem sortBy_of_sorted {l : List α} (h : l.Pairwise (fun x y => key x ≤ key y)) :
    sortBy key l = l := by
  induction l with
  | nil => rfl
  | cons a l ih =>
    rw [List.pairwise_cons] at h
    simp only [sortBy, ih h.2]
    exact insertBy_of_le key h.1

theorem insertBy_filter (p : α → Bool) (a : α) {l : List α}
    (hs : l.Pairwise (fun x y => key x ≤ key y)) :
    (insertBy key a l).filter p = if p a then insertBy key a (l.filter p) else l.filter p := by
  induction l with
  | nil => cases h : p a <;> simp [insertBy, h]
  | cons b l ih =>
    rw [List.pairwise_cons] at hs
    simp only [insertBy]
    by_cases hab : key a ≤ key b
    · simp only [hab, if_true]
      cases hpa : p a
      · simp [List.filter_cons, hpa]
      · simp only [List.filter_cons, hpa, if_true]
        cases hpb : p b
        · simp only [Bool.false_eq_true, if_false]
          rw [insertBy_of_le]
          intro c hc
          exact hab.trans (hs.1 c (List.mem_filter.1 hc).1)
        · simp [insertBy, hab]
    · simp only [hab, if_false, List.filter_cons, ih hs.2]
      cases hpa : p a <;> cases hpb : p b <;> simp [insertBy, hab]

/-- Filtering commutes with (stable) sorting. -/
theorem sortBy_filter (p : α → Bool) (l : List α) :
    (sortBy key l).filter p = sortBy key (l.filter p) := by
  induction l with
  | nil => rfl
  | cons a l ih =>
    simp only [sortBy, insertBy_filter key p a (sortBy_sorted key l), ih, List.filter_cons]
    cases p a <;> simp [sortBy]

/-- Stability: elements with the same key keep their order. -/
theorem sortBy_stable (l : List α) (k : K) :
    (sortBy key l).filter (fun a => decide (key a = k)) = l.filter (fun a => decide (key a = k)) := by
  rw [sortBy_filter]
  apply sortBy_of_sorted
  rw [List.pairwise_iff_getElem]
  intro i j hi hj _
  have h1 := (List.mem_filter.1 (List.getElem_mem hi)).2
  have h2 := (List.mem_filter.1 (List.getElem_mem hj)).2
  simp only [decide_eq_true_eq] at h1 h2
  rw [h1, h2]

/-- A permutation with pairwise distinct keys is sorted to the same list. -/
theorem sortBy_eq_of_perm {l l' : List α} (hp : l.Perm l') (hd : (l.map key).Nodup) :
    sortBy key l = sortBy key l' := by
  have h1 := (sortBy_perm key l).trans (hp.trans (sortBy_perm key l').symm)
  refine List.Perm.eq_of_pairwise (le := fun x y => key x ≤ key y) ?_ (sortBy_sorted key l) (sortBy_sorted key l') h1
  intro a b ha hb hab hba
  have hkey : key a = key b := le_antisymm hab hba
  have ha' := (mem_sortBy key).1 ha
  have hb' := hp.mem_iff.2 ((mem_sortBy key).1 hb)
  exact List.inj_on_of_nodup_map hd ha' hb' hkey

theorem sortBy_map {β : Type} (f : β → α) (l : List β) :
    sortBy key (l.map f) = (sortBy (fun b => key (f b)) l).map f := by
  induction l with
  | nil => rfl
  | cons a l ih =>
    simp only [List.map_cons, sortBy, ih]
    generalize sortBy (fun b => key (f b)) l = m
    induction m with
    | nil => rfl
    | cons b m ihm =>
      simp only [List.map_cons, insertBy]
      split_ifs <;> simp [ihm]

theorem sortBy_congr {K' : Type} [LinearOrder K'] (key' : α → K') {l : List α}
    (h : ∀ a ∈ l, ∀ b ∈ l, key a ≤ key b ↔ key' a ≤ key' b) : sortBy key l = sortBy key' l := by
  have hins : ∀ (a : α) (m : List α), (∀ b ∈ m, key a ≤ key b ↔ key' a ≤ key' b) →
      insertBy key a m = insertBy key' a m := by
    intro a m hm
    induction m with
    | nil => rfl
    | cons b m ih =>
      simp only [insertBy]
      rw [ih (fun c hc => hm c (by simp [hc]))]
      by_cases hk : key a ≤ key b
      · simp [hk, (hm b (by simp)).1 hk]
      · have : ¬ key' a ≤ key' b := fun h' => hk ((hm b (by simp)).2 h')
        simp [hk, this]
  induction l with
  | nil => rfl
  | cons a l ih =>
    simp only [sortBy]
    rw [ih (fun x hx y hy => h x (by simp [hx]) y (by simp [hy]))]
    exact hins a _ (fun b hb => h a (by simp) b (by simp [(mem_sortBy key').1 hb]))

end Sorting

end Ama
