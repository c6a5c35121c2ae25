import Verif.Py.Heapq
import Mathlib.Data.List.Perm.Basic

/-!
# Correctness of the `heapq` transcription

Partial correctness with respect to a key: whenever the comparisons performed do not raise, the
result is a heap, a permutation of what it should be, and the popped element has a minimal key.
-/

namespace Ama.Heapq

variable {α K : Type} [LinearOrder K]

/-- The comparison agrees with a key wherever it does not raise. -/
def LtSound (lt : α → α → Py Bool) (key : α → K) : Prop :=
  ∀ a b r, lt a b = .ok r → if r then key a ≤ key b else key b ≤ key a

/-- The heap invariant with respect to `key`. -/
def IsHeap (key : α → K) (h : List α) : Prop :=
  ∀ i a b, 0 < i → h[(i - 1) / 2]? = some a → h[i]? = some b → key a ≤ key b

/-- The comparison does not raise on elements of `l`. -/
def LtTotalOn (lt : α → α → Py Bool) (l : List α) : Prop :=
  ∀ a ∈ l, ∀ b ∈ l, ∃ r, lt a b = .ok r

theorem pyIdx_ok {xs : List α} {i : ℕ} {x : α} : pyIdx xs i = .ok x ↔ xs[i]? = some x := by
  unfold pyIdx
  cases h : xs[i]? <;> simp

theorem pyIdx_lt {xs : List α} {i : ℕ} (h : i < xs.length) : pyIdx xs i = .ok xs[i] := by
  simp [pyIdx, h]

theorem perm_set (h : List α) (pos : ℕ) (y x : α) (hy : h[pos]? = some y) :
    (x :: h).Perm (y :: h.set pos x) := by
  induction h generalizing pos with
  | nil => simp at hy
  | cons a t ih =>
    cases pos with
    | zero =>
      simp at hy
      subst hy
      simpa using List.Perm.swap a x t
    | succ n =>
      simp at hy
      have := ih n hy
      simp only [List.set_cons_succ]
      exact (List.Perm.swap a x t).trans ((this.cons a).trans (List.Perm.swap y a _))

theorem perm_set_set (h : List α) (pos pp : ℕ) (p x : α) (hp : h[pp]? = some p)
    (hpos : pos < h.length) (hne : pp ≠ pos) :
    ((h.set pos p).set pp x).Perm (h.set pos x) := by
  have h1 := perm_set (h.set pos p) pp p x (by simp [List.getElem?_set, hne.symm, hp])
  have h2 := perm_set h pos h[pos] p (by simp [hpos])
  have h3 := perm_set h pos h[pos] x (by simp [hpos])
  -- p :: x :: h
  have e1 : (p :: x :: h).Perm (h[pos] :: p :: (h.set pos p).set pp x) :=
    (List.Perm.swap x p h).trans
      ((h2.cons x).trans ((List.Perm.swap h[pos] x _).trans (h1.cons h[pos])))
  have e2 : (p :: x :: h).Perm (h[pos] :: p :: h.set pos x) :=
    (h3.cons p).trans (List.Perm.swap _ _ _)
  have := e1.symm.trans e2
  exact (List.perm_cons _).1 ((List.perm_cons _).1 this)

section Siftdown

variable {lt : α → α → Py Bool} {key : α → K}

/-- Invariant of `siftdownLoop`. -/
structure DownInv (key : α → K) (x : α) (h : List α) (pos : ℕ) : Prop where
  away : ∀ i a b, 0 < i → i ≠ pos → (i - 1) / 2 ≠ pos → h[(i - 1) / 2]? = some a →
    h[i]? = some b → key a ≤ key b
  child : ∀ i b, 0 < i → (i - 1) / 2 = pos → h[i]? = some b → key x ≤ key b
  grand : ∀ i a b, 0 < pos → 0 < i → (i - 1) / 2 = pos → h[(pos - 1) / 2]? = some a →
    h[i]? = some b → key a ≤ key b

theorem siftdownLoop_spec (hlt : LtSound lt key) (x : α) :
    ∀ (pos : ℕ) (h h' : List α), pos < h.length → DownInv key x h pos →
      siftdownLoop lt x h pos = .ok h' → IsHeap key h' ∧ h'.Perm (h.set pos x) := by
  intro pos
  induction pos using Nat.strong_induction_on with
  | _ pos ih =>
  intro h h' hpos inv heq
  -- the final configuration is a heap when the parent (if any) is small enough
  have final : (∀ a, 0 < pos → h[(pos - 1) / 2]? = some a → key a ≤ key x) →
      IsHeap key (h.set pos x) := by
    intro hpar i a b hi ha hb
    by_cases hip : i = pos
    · subst hip
      have hne : i ≠ (i - 1) / 2 := by omega
      rw [List.getElem?_set_ne hne] at ha
      rw [List.getElem?_set_self hpos] at hb
      cases hb
      exact hpar a hi ha
    · rw [List.getElem?_set_ne (Ne.symm hip)] at hb
      by_cases hpp : (i - 1) / 2 = pos
      · rw [hpp, List.getElem?_set_self hpos] at ha
        cases ha
        exact inv.child i b hi hpp hb
      · rw [List.getElem?_set_ne (Ne.symm hpp)] at ha
        exact inv.away i a b hi hip hpp ha hb
  rw [siftdownLoop] at heq
  by_cases h0 : 0 < pos
  · rw [dif_pos h0] at heq
    have hpp : (pos - 1) / 2 < h.length := by omega
    simp only [pyIdx_lt hpp] at heq
    have hp? : h[(pos - 1) / 2]? = some h[(pos - 1) / 2] := by simp [hpp]
    generalize hp : h[(pos - 1) / 2] = p at heq hp?
    cases hr : lt x p with
    | error e => simp [hr, bind, Except.bind] at heq
    | ok r =>
      have hs := hlt _ _ _ hr
      cases r with
      | false =>
        simp [hr, bind, Except.bind, pure, Except.pure] at heq
        subst heq
        refine ⟨final ?_, List.Perm.refl _⟩
        intro a _ ha
        rw [hp?] at ha
        cases ha
        simpa using hs
      | true =>
        simp [hr, bind, Except.bind] at heq
        simp only [if_true] at hs
        have hlen : (pos - 1) / 2 < (h.set pos p).length := by simpa using hpp
        have inv' : DownInv key x (h.set pos p) ((pos - 1) / 2) := by
          constructor
          · intro i a b hi hine hpne ha hb
            have hip : i ≠ pos := by
              rintro rfl
              exact hpne rfl
            rw [List.getElem?_set_ne (Ne.symm hip)] at hb
            by_cases hc : (i - 1) / 2 = pos
            · rw [hc, List.getElem?_set_self hpos] at ha
              cases ha
              exact inv.grand i _ b h0 hi hc hp? hb
            · rw [List.getElem?_set_ne (Ne.symm hc)] at ha
              exact inv.away i a b hi hip hc ha hb
          · intro i b hi hpar hb
            by_cases hip : i = pos
            · subst hip
              rw [List.getElem?_set_self hpos] at hb
              cases hb
              exact hs
            · rw [List.getElem?_set_ne (Ne.symm hip)] at hb
              refine hs.trans (inv.away i _ b hi hip (by omega) ?_ hb)
              rw [hpar]
              exact hp?
          · intro i a b hpp0 hi hpar ha hb
            rw [List.getElem?_set_ne (by omega)] at ha
            have hap : key a ≤ key p :=
              inv.away ((pos - 1) / 2) a p hpp0 (by omega) (by omega) ha hp?
            by_cases hip : i = pos
            · subst hip
              rw [List.getElem?_set_self hpos] at hb
              cases hb
              exact hap
            · rw [List.getElem?_set_ne (Ne.symm hip)] at hb
              refine hap.trans (inv.away i _ b hi hip (by omega) ?_ hb)
              rw [hpar]
              exact hp?
        obtain ⟨r1, r2⟩ := ih _ (by omega) _ _ hlen inv' heq
        exact ⟨r1, r2.trans (perm_set_set h pos _ p x hp? hpos (by omega))⟩
  · rw [dif_neg h0] at heq
    simp [pure, Except.pure] at heq
    subst heq
    exact ⟨final (fun _ hp => absurd hp h0), List.Perm.refl _⟩

theorem siftdownLoop_total (x : α) :
    ∀ (pos : ℕ) (h : List α), pos < h.length → LtTotalOn lt (x :: h) →
      ∃ h', siftdownLoop lt x h pos = .ok h' := by
  intro pos
  induction pos using Nat.strong_induction_on with
  | _ pos ih =>
  intro h hpos htot
  rw [siftdownLoop]
  by_cases h0 : 0 < pos
  · rw [dif_pos h0]
    have hpp : (pos - 1) / 2 < h.length := by omega
    obtain ⟨r, hr⟩ := htot x (by simp) h[(pos - 1) / 2] (by simp)
    simp only [pyIdx_lt hpp, bind, Except.bind, hr]
    cases r with
    | false => exact ⟨_, rfl⟩
    | true =>
      refine ih _ (by omega) _ (by simpa using hpp) ?_
      have hsub : ∀ a ∈ x :: h.set pos h[(pos - 1) / 2], a ∈ x :: h := by
        intro a ha
        rcases List.mem_cons.1 ha with rfl | ha
        · simp
        · rcases List.mem_or_eq_of_mem_set ha with h1 | rfl
          · simp [h1]
          · simp
      exact fun a ha b hb => htot a (hsub a ha) b (hsub b hb)
  · rw [dif_neg h0]
    exact ⟨_, rfl⟩

end Siftdown

section Siftup

variable {lt : α → α → Py Bool} {key : α → K}

/-- Invariant of `siftupLoop`. -/
structure UpInv (key : α → K) (h : List α) (pos : ℕ) : Prop where
  away : ∀ i a b, 0 < i → i ≠ pos → (i - 1) / 2 ≠ pos → h[(i - 1) / 2]? = some a →
    h[i]? = some b → key a ≤ key b
  grand : ∀ i a b, 0 < pos → 0 < i → (i - 1) / 2 = pos → h[(pos - 1) / 2]? = some a →
    h[i]? = some b → key a ≤ key b

/-- One step of `siftupLoop` as a relation. -/
theorem siftupLoop_step {h : List α} {pos : ℕ} {h' : List α} {pos' : ℕ} (hpos : pos < h.length)
    (hc : 2 * pos + 1 < h.length) (heq : siftupLoop lt h pos = .ok (h', pos')) :
    ∃ c child, (c = 2 * pos + 1 ∨ c = 2 * pos + 2) ∧ h[c]? = some child ∧
      siftupLoop lt (h.set pos child) c = .ok (h', pos') ∧
      (∀ (K : Type) [LinearOrder K] (key : α → K), LtSound lt key → ∀ i b, (i = 2 * pos + 1 ∨ i = 2 * pos + 2) →
        h[i]? = some b → key child ≤ key b) := by
  rw [siftupLoop] at heq
  simp only [dif_pos hc] at heq
  simp only [pyIdx_lt hc, bind, Except.bind] at heq
  by_cases hr : 2 * pos + 1 + 1 < h.length
  · simp only [hr, if_true, pyIdx_lt hr] at heq
    cases hcmp : lt h[2 * pos + 1] h[2 * pos + 1 + 1] with
    | error e => simp [hcmp] at heq
    | ok r =>
      rw [hcmp] at heq
      cases r with
      | true =>
        simp [pure, Except.pure, pyIdx_lt hc, hpos] at heq
        refine ⟨2 * pos + 1, h[2 * pos + 1], Or.inl rfl, by simp, heq, ?_⟩
        intro K _ key hlt i b hi hb
        have hs := hlt _ _ _ hcmp
        rcases hi with rfl | rfl
        · simp [hc] at hb
          subst hb
          exact le_refl _
        · have : h[2 * pos + 2]? = some h[2 * pos + 1 + 1] := by simp
          rw [this] at hb
          cases hb
          simpa using hs
      | false =>
        simp [pure, Except.pure, pyIdx_lt hr, hpos] at heq
        refine ⟨2 * pos + 2, h[2 * pos + 1 + 1], Or.inr rfl, by simp, ?_, ?_⟩
        · exact heq
        intro K _ key hlt i b hi hb
        have hs := hlt _ _ _ hcmp
        rcases hi with rfl | rfl
        · simp [hc] at hb
          subst hb
          simpa using hs
        · have : h[2 * pos + 2]? = some h[2 * pos + 1 + 1] := by simp
          rw [this] at hb
          cases hb
          exact le_refl _
  · simp [hr, pure, Except.pure, pyIdx_lt hc, hpos] at heq
    refine ⟨2 * pos + 1, h[2 * pos + 1], Or.inl rfl, by simp, heq, ?_⟩
    intro K _ key hlt i b hi hb
    rcases hi with rfl | rfl
    · simp [hc] at hb
      subst hb
      exact le_refl _
    · have : h[2 * pos + 2]? = none := by simp; omega
      rw [this] at hb
      cases hb

theorem siftupLoop_spec (hlt : LtSound lt key) (x : α) :
    ∀ (n : ℕ) (pos : ℕ) (h h' : List α) (pos' : ℕ), h.length - pos = n → pos < h.length →
      UpInv key h pos → siftupLoop lt h pos = .ok (h', pos') →
      pos' < h'.length ∧ h'.length = h.length ∧ UpInv key h' pos' ∧ h'.length ≤ 2 * pos' + 1 ∧
        (h'.set pos' x).Perm (h.set pos x) := by
  intro n
  induction n using Nat.strong_induction_on with
  | _ n ih =>
  intro pos h h' pos' hn hpos inv heq
  by_cases hc : 2 * pos + 1 < h.length
  · obtain ⟨c, child, hcpos, hchild, heq', hmin⟩ := siftupLoop_step hpos hc heq
    have hmin := hmin K key hlt
    have hclen : c < h.length := by
      by_contra hcon
      rw [List.getElem?_eq_none (by omega)] at hchild
      cases hchild
    have hparc : (c - 1) / 2 = pos := by omega
    have inv' : UpInv key (h.set pos child) c := by
      constructor
      · intro i a b hi hic hpc ha hb
        by_cases hip : i = pos
        · subst hip
          rw [List.getElem?_set_ne (by omega)] at ha
          rw [List.getElem?_set_self hpos] at hb
          cases hb
          exact inv.grand c a child hi (by omega) hparc ha hchild
        · rw [List.getElem?_set_ne (Ne.symm hip)] at hb
          by_cases hpp : (i - 1) / 2 = pos
          · rw [hpp, List.getElem?_set_self hpos] at ha
            cases ha
            exact hmin i b (by omega) hb
          · rw [List.getElem?_set_ne (Ne.symm hpp)] at ha
            exact inv.away i a b hi hip hpp ha hb
      · intro i a b hc0 hi hpar ha hb
        rw [hparc, List.getElem?_set_self hpos] at ha
        cases ha
        rw [List.getElem?_set_ne (by omega)] at hb
        exact inv.away i _ b hi (by omega) (by omega) (by rw [hpar]; exact hchild) hb
    obtain ⟨r1, r2, r3, r4, r5⟩ := ih (h.length - c) (by omega) c (h.set pos child) h' pos'
      (by simp) (by simpa using hclen) inv' heq'
    refine ⟨r1, by simpa using r2, r3, r4, r5.trans ?_⟩
    exact perm_set_set h pos c child x hchild hpos (by omega)
  · rw [siftupLoop] at heq
    simp [hc, pure, Except.pure] at heq
    obtain ⟨rfl, rfl⟩ := heq
    exact ⟨hpos, rfl, inv, by omega, List.Perm.refl _⟩

theorem siftupLoop_total :
    ∀ (n : ℕ) (pos : ℕ) (h : List α), h.length - pos = n → pos < h.length →
      LtTotalOn lt h → ∃ h' pos', siftupLoop lt h pos = .ok (h', pos') ∧ pos' < h'.length ∧
        ∀ a ∈ h', a ∈ h := by
  intro n
  induction n using Nat.strong_induction_on with
  | _ n ih =>
  intro pos h hn hpos htot
  by_cases hc : 2 * pos + 1 < h.length
  · have step : ∀ c, (c = 2 * pos + 1 ∨ c = 2 * pos + 2) → ∀ (hcl : c < h.length),
        ∃ h' pos', siftupLoop lt (h.set pos h[c]) c = .ok (h', pos') ∧ pos' < h'.length ∧
          ∀ a ∈ h', a ∈ h := by
      intro c hc' hcl
      have hsub : ∀ a ∈ h.set pos h[c], a ∈ h := by
        intro a ha
        rcases List.mem_or_eq_of_mem_set ha with h1 | rfl
        · exact h1
        · simp
      obtain ⟨h', pos', e1, e2, e3⟩ := ih (h.length - c) (by omega) c (h.set pos h[c]) (by simp)
        (by simpa using hcl) (fun a ha b hb => htot a (hsub a ha) b (hsub b hb))
      exact ⟨h', pos', e1, e2, fun a ha => hsub a (e3 a ha)⟩
    rw [siftupLoop]
    simp only [dif_pos hc]
    simp only [pyIdx_lt hc, bind, Except.bind]
    by_cases hr : 2 * pos + 1 + 1 < h.length
    · simp only [hr, if_true, pyIdx_lt hr]
      obtain ⟨r, hcmp⟩ := htot h[2 * pos + 1] (by simp) h[2 * pos + 1 + 1] (by simp)
      rw [hcmp]
      cases r with
      | true =>
        simp [pure, Except.pure, pyIdx_lt hc, hpos]
        exact step _ (Or.inl rfl) hc
      | false =>
        simp [pure, Except.pure, pyIdx_lt hr, hpos]
        exact step _ (Or.inr rfl) hr
    · simp [hr, pure, Except.pure, pyIdx_lt hc, hpos]
      exact step _ (Or.inl rfl) hc
  · rw [siftupLoop]
    simp [hc, pure, Except.pure]
    exact hpos

end Siftup

section Main

variable {lt : α → α → Py Bool} {key : α → K}

theorem isHeap_nil : IsHeap key ([] : List α) := by
  intro i a b _ ha
  simp at ha

/-- The root of a heap has a minimal key. -/
theorem IsHeap.root_le {h : List α} (hh : IsHeap key h) {r : α} (hr : h[0]? = some r) :
    ∀ (i : ℕ) (b : α), h[i]? = some b → key r ≤ key b := by
  intro i
  induction i using Nat.strong_induction_on with
  | _ i ih =>
  intro b hb
  by_cases hi : 0 < i
  · have hlt : (i - 1) / 2 < h.length := by
      have : i < h.length := by
        by_contra hcon
        rw [List.getElem?_eq_none (by omega)] at hb
        cases hb
      omega
    have ha : h[(i - 1) / 2]? = some h[(i - 1) / 2] := by simp [hlt]
    exact (ih _ (by omega) _ ha).trans (hh i _ b hi ha hb)
  · have : i = 0 := by omega
    subst this
    rw [hr] at hb
    cases hb
    exact le_refl _

/-- A list sorted by key is a heap. -/
theorem isHeap_of_sorted {h : List α} (hs : h.Pairwise (fun a b => key a ≤ key b)) :
    IsHeap key h := by
  intro i a b hi ha hb
  rw [List.pairwise_iff_getElem] at hs
  obtain ⟨h1, rfl⟩ := List.getElem?_eq_some_iff.1 ha
  obtain ⟨h2, rfl⟩ := List.getElem?_eq_some_iff.1 hb
  exact hs _ _ h1 h2 (by omega)

theorem heappush_spec (hlt : LtSound lt key) {h h' : List α} {x : α} (hh : IsHeap key h)
    (heq : heappush lt h x = .ok h') : IsHeap key h' ∧ h'.Perm (x :: h) := by
  unfold heappush siftdown at heq
  have hlen : h.length < (h ++ [x]).length := by simp
  rw [pyIdx_lt hlen] at heq
  simp only [bind, Except.bind, List.getElem_concat_length] at heq
  have inv : DownInv key x (h ++ [x]) h.length := by
    constructor
    · intro i a b hi hine hpne ha hb
      have hil : i < h.length := by
        obtain ⟨h2, _⟩ := List.getElem?_eq_some_iff.1 hb
        simp at h2
        omega
      rw [List.getElem?_append_left hil] at hb
      rw [List.getElem?_append_left (by omega)] at ha
      exact hh i a b hi ha hb
    · intro i b hi hpar hb
      obtain ⟨h2, _⟩ := List.getElem?_eq_some_iff.1 hb
      simp at h2
      omega
    · intro i a b hpos hi hpar ha hb
      obtain ⟨h2, _⟩ := List.getElem?_eq_some_iff.1 hb
      simp at h2
      omega
  obtain ⟨r1, r2⟩ := siftdownLoop_spec hlt x _ _ _ hlen inv heq
  refine ⟨r1, r2.trans ?_⟩
  have : (h ++ [x]).set h.length x = h ++ [x] := by simp
  rw [this]
  exact List.perm_append_singleton x h

theorem heappush_total {h : List α} {x : α} (htot : LtTotalOn lt (x :: h)) :
    ∃ h', heappush lt h x = .ok h' := by
  unfold heappush siftdown
  have hlen : h.length < (h ++ [x]).length := by simp
  rw [pyIdx_lt hlen]
  simp only [bind, Except.bind, List.getElem_concat_length]
  refine siftdownLoop_total x _ _ hlen ?_
  have hsub : ∀ a ∈ x :: (h ++ [x]), a ∈ x :: h := by
    intro a ha
    simp at ha ⊢
    tauto
  exact fun a ha b hb => htot a (hsub a ha) b (hsub b hb)

theorem heappop_spec (hlt : LtSound lt key) {h h' : List α} {x : α} (hh : IsHeap key h)
    (heq : heappop lt h = .ok (x, h')) :
    IsHeap key h' ∧ h.Perm (x :: h') ∧ ∀ b ∈ h, key x ≤ key b := by
  unfold heappop at heq
  cases hl : h.getLast? with
  | none => simp [hl] at heq
  | some lastelt =>
    simp only [hl] at heq
    have hsplit : h = h.dropLast ++ [lastelt] := (List.dropLast_append_getLast? _ hl).symm
    have hmin : ∀ r, h[0]? = some r → ∀ b ∈ h, key r ≤ key b := by
      intro r hr b hb
      obtain ⟨i, hi, rfl⟩ := List.mem_iff_getElem.1 hb
      exact hh.root_le hr i _ (by simp [hi])
    cases hd : h.dropLast with
    | nil =>
      simp only [hd, Except.ok.injEq, Prod.mk.injEq] at heq
      obtain ⟨rfl, rfl⟩ := heq
      rw [hd] at hsplit
      simp at hsplit
      subst hsplit
      refine ⟨isHeap_nil, List.Perm.refl _, ?_⟩
      simp
    | cons ret rest =>
      simp only [hd, bind, Except.bind] at heq
      cases hu : siftup lt (lastelt :: rest) with
      | error e => simp [hu] at heq
      | ok h1 =>
        simp [hu, pure, Except.pure] at heq
        obtain ⟨rfl, rfl⟩ := heq
        rw [hd] at hsplit
        have hret : h[0]? = some ret := by rw [hsplit]; simp
        have inv : UpInv key (lastelt :: rest) 0 := by
          constructor
          · intro i a b hi _ hpne ha hb
            apply hh i a b hi
            · rw [hsplit]
              obtain ⟨h2, _⟩ := List.getElem?_eq_some_iff.1 ha
              rw [List.getElem?_append_left (by simpa using h2)]
              obtain ⟨j, hj⟩ : ∃ j, (i - 1) / 2 = j + 1 := ⟨(i - 1) / 2 - 1, by omega⟩
              rw [hj] at ha ⊢
              simpa using ha
            · rw [hsplit]
              obtain ⟨h2, _⟩ := List.getElem?_eq_some_iff.1 hb
              rw [List.getElem?_append_left (by simpa using h2)]
              obtain ⟨j, hj⟩ : ∃ j, i = j + 1 := ⟨i - 1, by omega⟩
              rw [hj] at hb ⊢
              simpa using hb
          · intro i a b hpos
            omega
        unfold siftup at hu
        simp only [pyIdx, List.getElem?_cons_zero, bind, Except.bind] at hu
        cases hsu : siftupLoop lt (lastelt :: rest) 0 with
        | error e => simp [hsu] at hu
        | ok res =>
          obtain ⟨h2, pos2⟩ := res
          simp only [hsu] at hu
          obtain ⟨r1, r2, r3, r4, r5⟩ := siftupLoop_spec hlt lastelt _ 0 _ _ _ rfl (by simp) inv hsu
          have dinv : DownInv key lastelt (h2.set pos2 lastelt) pos2 := by
            constructor
            · intro i a b hi hine hpne ha hb
              rw [List.getElem?_set_ne (Ne.symm hpne)] at ha
              rw [List.getElem?_set_ne (Ne.symm hine)] at hb
              exact r3.away i a b hi hine hpne ha hb
            · intro i b hi hpar hb
              obtain ⟨h3, _⟩ := List.getElem?_eq_some_iff.1 hb
              simp at h3
              omega
            · intro i a b _ hi hpar _ hb
              obtain ⟨h3, _⟩ := List.getElem?_eq_some_iff.1 hb
              simp at h3
              omega
          obtain ⟨s1, s2⟩ := siftdownLoop_spec hlt lastelt _ _ _ (by simpa using r1) dinv hu
          refine ⟨s1, ?_, hmin ret hret⟩
          have e1 : h1.Perm (lastelt :: rest) := by
            refine s2.trans ?_
            rw [List.set_set]
            exact r5
          rw [hsplit]
          refine List.Perm.trans ?_ (e1.symm.cons ret)
          simpa using (List.perm_append_singleton lastelt (ret :: rest)).trans
            (List.Perm.swap ret lastelt rest)

theorem heappop_total {h : List α} (hne : h ≠ []) (htot : LtTotalOn lt h) :
    ∃ x h', heappop lt h = .ok (x, h') := by
  unfold heappop
  cases hl : h.getLast? with
  | none => simp at hl; exact absurd hl hne
  | some lastelt =>
    have hsplit : h = h.dropLast ++ [lastelt] := (List.dropLast_append_getLast? _ hl).symm
    cases hd : h.dropLast with
    | nil => exact ⟨_, _, rfl⟩
    | cons ret rest =>
      rw [hd] at hsplit
      have hsub : ∀ a ∈ lastelt :: rest, a ∈ h := by
        intro a ha
        rw [hsplit]
        simp at ha ⊢
        tauto
      obtain ⟨h2, pos2, e1, e2, e3⟩ := siftupLoop_total (lt := lt) _ 0 (lastelt :: rest) rfl (by simp)
        (fun a ha b hb => htot a (hsub a ha) b (hsub b hb))
      obtain ⟨h3, e4⟩ := siftdownLoop_total (lt := lt) lastelt pos2 (h2.set pos2 lastelt) (by simpa using e2) (by
        have hsub2 : ∀ a ∈ lastelt :: h2.set pos2 lastelt, a ∈ h := by
          intro a ha
          rcases List.mem_cons.1 ha with rfl | ha
          · exact hsub _ (by simp)
          · rcases List.mem_or_eq_of_mem_set ha with h1 | rfl
            · exact hsub _ (e3 _ h1)
            · exact hsub _ (by simp)
        exact fun a ha b hb => htot a (hsub2 a ha) b (hsub2 b hb))
      refine ⟨ret, h3, ?_⟩
      simp [siftup, pyIdx, bind, Except.bind, e1, e4, pure, Except.pure]

end Main

end Ama.Heapq
