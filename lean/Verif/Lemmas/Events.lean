import Verif.Spec.Events
import Verif.Lemmas.Heapq
import Verif.Lemmas.Py

/-!
# Lemmas about the event queue
-/

namespace Ama

open Spec

theorem before_iff {a b : Event} : Before a b ↔ a.key ≤ b.key := by
  unfold Before Event.key
  rw [Prod.Lex.toLex_le_toLex]

theorem event_ltSound : Heapq.LtSound Event.pyLt Event.key := by
  intro a b r h
  unfold Event.pyLt at h
  simp only [Except.ok.injEq] at h
  cases r with
  | true =>
    simp only [decide_eq_true_eq] at h
    simp only [if_true]
    rw [← before_iff]
    rcases h with h | ⟨h1, h2⟩
    · exact Or.inl h
    · exact Or.inr ⟨h1, h2.le⟩
  | false =>
    simp only [decide_eq_false_iff_not, not_or, not_and] at h
    simp only [Bool.false_eq_true, if_false]
    rw [← before_iff]
    rcases lt_or_eq_of_le (not_lt.1 h.1) with h' | h'
    · exact Or.inl h'
    · exact Or.inr ⟨h', not_lt.1 (h.2 h'.symm)⟩

theorem event_ltTotal (l : List Event) : Heapq.LtTotalOn Event.pyLt l := fun _ _ _ _ => ⟨_, rfl⟩

/-- The queue invariant. -/
def Events.Ok (evs : Events) : Prop := Heapq.IsHeap Event.key evs.q

theorem Events.ok_empty : ({} : Events).Ok := Heapq.isHeap_nil

theorem Events.add_spec (evs : Events) (h : evs.Ok) (a : NewEvent) :
    ∃ evs', evs.add a = .ok evs' ∧ evs'.Ok ∧
      evs'.q.Perm (Events.mkEvent a (NewEvent.idWith a evs.eventId) :: evs.q) ∧
      evs'.eventId = if a.eventId = none then evs.eventId + 1 else evs.eventId := by
  obtain ⟨q, hq⟩ := Heapq.heappush_total (lt := Event.pyLt) (h := evs.q)
    (x := Events.mkEvent a (a.eventId.getD evs.eventId)) (event_ltTotal _)
  obtain ⟨h1, h2⟩ := Heapq.heappush_spec event_ltSound h hq
  refine ⟨{ q := q, eventId := if a.eventId.isNone then evs.eventId + 1 else evs.eventId },
    by simp only [Events.add, hq, Py.ok_bind, Py.pure_eq], h1, ?_, ?_⟩
  · have : NewEvent.idWith a evs.eventId = a.eventId.getD evs.eventId := by
      unfold NewEvent.idWith
      cases a.eventId <;> rfl
    rw [this]
    exact h2
  · cases a.eventId <;> simp

theorem Events.getNext_spec {evs evs' : Events} {e : Event} (h : evs.Ok)
    (hn : evs.getNext = .ok (e, evs')) :
    evs'.Ok ∧ evs.q.Perm (e :: evs'.q) ∧ (∀ b ∈ evs.q, Before e b) ∧ evs'.eventId = evs.eventId := by
  unfold Events.getNext at hn
  obtain ⟨⟨e0, q⟩, hq, hn⟩ := Py.bind_eq_ok.1 hn
  simp only [Py.pure_eq, Except.ok.injEq, Prod.mk.injEq] at hn
  obtain ⟨rfl, rfl⟩ := hn
  obtain ⟨h1, h2, h3⟩ := Heapq.heappop_spec event_ltSound h hq
  exact ⟨h1, h2, fun b hb => before_iff.2 (h3 b hb), rfl⟩

theorem Events.getNext_total {evs : Events} (hne : evs.q ≠ []) : ∃ e evs', evs.getNext = .ok (e, evs') := by
  obtain ⟨x, q, hq⟩ := Heapq.heappop_total (lt := Event.pyLt) hne (event_ltTotal _)
  exact ⟨x, { evs with q := q }, by unfold Events.getNext; rw [hq]; rfl⟩

theorem Events.getNext_empty {evs : Events} (h : evs.q = []) : evs.getNext = .error .indexError := by
  unfold Events.getNext Heapq.heappop
  rw [h]
  rfl

theorem mkEvent_becomes (a : NewEvent) (i : ℕ) : NewEvent.Becomes a (Events.mkEvent a i) := by
  refine ⟨rfl, rfl, rfl, rfl, rfl, rfl, rfl, rfl, ?_⟩
  by_cases h : a.secondary = some a.primary
  · rw [if_pos h]
    simp [Events.mkEvent, h]
  · have h' : ¬ some a.primary = a.secondary := fun e => h e.symm
    rw [if_neg h]
    simp [Events.mkEvent, h']

theorem becomes_appliedAt {a : NewEvent} {e : Event} (h : NewEvent.Becomes a e) :
    Events.applicationTime e = NewEvent.appliedAt a := by
  obtain ⟨_, h2, _, _, _, _, _, _, h9⟩ := h
  unfold Events.applicationTime NewEvent.appliedAt
  split_ifs at h9 with hs
  · rw [h9.1, hs]
    exact h2
  · rw [h9.1]
    cases a.secondary with
    | none => exact h2
    | some t => rfl

/-- The queue after any operations. -/
theorem runQueue_spec (ops : List QueueOp) (evs evs' : Events) (out : List Event) (h : evs.Ok)
    (hr : runQueue evs ops = .ok (out, evs')) :
    evs'.Ok ∧ ∃ es, EventsOf evs.eventId (additions ops) es ∧ (out ++ evs'.q).Perm (es ++ evs.q) := by
  induction ops generalizing evs out with
  | nil =>
    cases hr
    exact ⟨h, [], .nil _, by simp⟩
  | cons op ops ih =>
    cases op with
    | add a =>
      simp only [runQueue] at hr
      obtain ⟨evs1, h1, hr⟩ := Py.bind_eq_ok.1 hr
      obtain ⟨evs2, g1, g2, g3, g4⟩ := evs.add_spec h a
      rw [h1] at g1
      cases g1
      obtain ⟨i1, es, i2, i3⟩ := ih evs1 out g2 hr
      refine ⟨i1, Events.mkEvent a (NewEvent.idWith a evs.eventId) :: es, ?_, ?_⟩
      · have hadd : additions (.add a :: ops) = a :: additions ops := rfl
        rw [hadd]
        cases hid : a.eventId with
        | none =>
          rw [hid] at g4
          rw [g4] at i2
          exact .fresh _ _ _ _ _ hid (by simp [Events.mkEvent, NewEvent.idWith, hid])
            (mkEvent_becomes _ _) i2
        | some i =>
          rw [hid] at g4
          rw [g4] at i2
          exact .given _ i _ _ _ _ hid (by simp [Events.mkEvent, NewEvent.idWith, hid])
            (mkEvent_becomes _ _) i2
      · refine i3.trans ((List.Perm.append_left es g3).trans ?_)
        rw [List.cons_append]
        exact List.perm_middle
    | next =>
      simp only [runQueue] at hr
      obtain ⟨⟨e, evs1⟩, h1, hr⟩ := Py.bind_eq_ok.1 hr
      obtain ⟨⟨out1, evs2⟩, h2, hr⟩ := Py.bind_eq_ok.1 hr
      simp only [Py.pure_eq, Except.ok.injEq, Prod.mk.injEq] at hr
      obtain ⟨rfl, rfl⟩ := hr
      obtain ⟨g1, g2, _, g4⟩ := Events.getNext_spec h h1
      obtain ⟨i1, es, i2, i3⟩ := ih evs1 out1 g1 h2
      rw [g4] at i2
      refine ⟨i1, es, i2, ?_⟩
      rw [List.cons_append]
      refine (List.Perm.cons e i3).trans ?_
      refine (List.perm_middle.symm).trans ?_
      exact List.Perm.append_left es g2.symm

theorem drain_spec (n : ℕ) (evs : Events) (h : evs.Ok) (hn : evs.q.length ≤ n) :
    ∃ out, drain n evs = .ok out ∧ out.Perm evs.q ∧ out.Pairwise Before := by
  induction n generalizing evs with
  | zero =>
    have hq : evs.q = [] := List.length_eq_zero_iff.1 (Nat.le_zero.1 hn)
    refine ⟨[], ?_, by rw [hq], List.Pairwise.nil⟩
    simp [drain, Events.isEmpty, hq]
  | succ n ih =>
    by_cases hq : evs.q = []
    · refine ⟨[], ?_, by rw [hq], List.Pairwise.nil⟩
      simp [drain, Events.isEmpty, hq]
    · obtain ⟨e, evs1, h1⟩ := Events.getNext_total hq
      obtain ⟨g1, g2, g3, _⟩ := Events.getNext_spec h h1
      have hlen := g2.length_eq
      rw [List.length_cons] at hlen
      obtain ⟨out, o1, o2, o3⟩ := ih evs1 g1 (by omega)
      refine ⟨e :: out, ?_, ?_, ?_⟩
      · have he : evs.isEmpty = false := by simpa [Events.isEmpty] using hq
        simp only [drain, he, Bool.false_eq_true, if_false, h1, Py.ok_bind, o1, Py.pure_eq]
      · exact (List.Perm.cons e o2).trans g2.symm
      · rw [List.pairwise_cons]
        refine ⟨?_, o3⟩
        intro b hb
        exact g3 b (g2.symm.subset (List.mem_cons_of_mem _ (o2.subset hb)))

theorem eventsOf_forall₂ {n : ℕ} {as : List NewEvent} {es : List Event} (h : EventsOf n as es) :
    List.Forall₂ NewEvent.Becomes as es := by
  induction h with
  | nil => exact .nil
  | given _ _ _ _ _ _ _ _ h _ ih => exact .cons h ih
  | fresh _ _ _ _ _ _ _ h _ ih => exact .cons h ih

/-- Reading the first damage time off a list. -/
theorem firstDamage_fold (l : List Event) (acc : Option ℚ)
    (hok : ∀ e ∈ l, ∃ s, e.skill.getDamageSpec e.modifier = .ok s) :
    ∃ r, l.foldlM Events.firstDamageStep acc = .ok r ∧
      (r = none ↔ acc = none ∧ ∀ e ∈ l, e.skill.getDamageSpec e.modifier = .ok none) ∧
      ∀ t, r = some t → IsLeast ({x | acc = some x} ∪
        {x | ∃ e ∈ l, (∃ s, e.skill.getDamageSpec e.modifier = .ok (some s)) ∧
          Events.applicationTime e = x}) t := by
  induction l generalizing acc with
  | nil =>
    refine ⟨acc, rfl, by simp, ?_⟩
    intro t ht
    subst ht
    constructor
    · simp
    · intro x hx
      simp only [List.not_mem_nil, false_and, exists_false, Set.ofPred_false, Set.union_empty,
        Set.mem_ofPred_eq, Option.some.injEq] at hx
      exact hx.le
  | cons e l ih =>
    obtain ⟨s, hs⟩ := hok e (by simp)
    cases s with
    | none =>
      obtain ⟨r, r1, r2, r3⟩ := ih acc (fun e he => hok e (by simp [he]))
      refine ⟨r, ?_, ?_, ?_⟩
      · rw [Py.foldlM_cons]
        unfold Events.firstDamageStep
        rw [hs]
        exact r1
      · rw [r2]
        simp [hs]
      · intro t ht
        obtain ⟨t1, t2⟩ := r3 t ht
        constructor
        · rcases t1 with t1 | ⟨e', he', hd, hx⟩
          · exact Or.inl t1
          · exact Or.inr ⟨e', by simp [he'], hd, hx⟩
        · rintro x (hx | ⟨e', he', hd, hx⟩)
          · exact t2 (Or.inl hx)
          · rcases List.mem_cons.1 he' with rfl | he'
            · rw [hs] at hd
              obtain ⟨s, hd⟩ := hd
              cases hd
            · exact t2 (Or.inr ⟨e', he', hd, hx⟩)
    | some s =>
      have hstep : ∃ a, Events.firstDamageStep acc e = .ok (some a) ∧
          (a = Events.applicationTime e ∨ acc = some a) ∧ a ≤ Events.applicationTime e ∧
          ∀ x, acc = some x → a ≤ x := by
        unfold Events.firstDamageStep
        rw [hs]
        cases acc with
        | none => exact ⟨_, rfl, Or.inl rfl, le_rfl, by simp⟩
        | some f =>
          refine ⟨_, rfl, ?_, min_le_left _ _, ?_⟩
          · rcases min_choice (Events.applicationTime e) f with h | h
            · exact Or.inl h
            · exact Or.inr (by rw [h])
          · intro x hx
            cases hx
            exact min_le_right _ _
      obtain ⟨a, a1, a2, a3, a4⟩ := hstep
      obtain ⟨r, r1, r2, r3⟩ := ih (some a) (fun e he => hok e (by simp [he]))
      refine ⟨r, ?_, ?_, ?_⟩
      · rw [Py.foldlM_cons, a1]
        exact r1
      · rw [r2]
        simp [hs]
      · intro t ht
        obtain ⟨t1, t2⟩ := r3 t ht
        constructor
        · rcases t1 with t1 | ⟨e', he', hd, hx⟩
          · simp only [Set.mem_ofPred_eq, Option.some.injEq] at t1
            subst t1
            rcases a2 with a2 | a2
            · exact Or.inr ⟨e, by simp, ⟨s, hs⟩, a2.symm⟩
            · exact Or.inl a2
          · exact Or.inr ⟨e', by simp [he'], hd, hx⟩
        · rintro x (hx | ⟨e', he', hd, hx⟩)
          · exact (t2 (Or.inl rfl)).trans (a4 x hx)
          · rcases List.mem_cons.1 he' with rfl | he'
            · rw [← hx]
              exact (t2 (Or.inl rfl)).trans a3
            · exact t2 (Or.inr ⟨e', he', hd, hx⟩)

theorem lastEvent_fold (l : List Event) (acc : Option ℚ) :
    (l.foldl Events.lastEventStep acc = none ↔ acc = none ∧ l = []) ∧
      ∀ t, l.foldl Events.lastEventStep acc = some t → IsGreatest ({x | acc = some x} ∪
        {x | ∃ e ∈ l, Events.applicationTime e = x}) t := by
  induction l generalizing acc with
  | nil =>
    refine ⟨by simp, ?_⟩
    intro t ht
    simp only [List.foldl_nil] at ht
    subst ht
    constructor
    · simp
    · intro x hx
      simp only [List.not_mem_nil, false_and, exists_false, Set.ofPred_false, Set.union_empty,
        Set.mem_ofPred_eq, Option.some.injEq] at hx
      exact hx.ge
  | cons e l ih =>
    have hstep : ∃ a, Events.lastEventStep acc e = some a ∧
        (a = Events.applicationTime e ∨ acc = some a) ∧ Events.applicationTime e ≤ a ∧
        ∀ x, acc = some x → x ≤ a := by
      unfold Events.lastEventStep
      cases acc with
      | none => exact ⟨_, rfl, Or.inl rfl, le_rfl, by simp⟩
      | some f =>
        refine ⟨_, rfl, ?_, le_max_left _ _, ?_⟩
        · rcases max_choice (Events.applicationTime e) f with h | h
          · exact Or.inl h
          · exact Or.inr (by rw [h])
        · intro x hx
          cases hx
          exact le_max_right _ _
    obtain ⟨a, a1, a2, a3, a4⟩ := hstep
    rw [List.foldl_cons, a1]
    obtain ⟨r2, r3⟩ := ih (some a)
    refine ⟨by rw [r2]; simp, ?_⟩
    intro t ht
    obtain ⟨t1, t2⟩ := r3 t ht
    constructor
    · rcases t1 with t1 | ⟨e', he', hx⟩
      · simp only [Set.mem_ofPred_eq, Option.some.injEq] at t1
        subst t1
        rcases a2 with a2 | a2
        · exact Or.inr ⟨e, by simp, a2.symm⟩
        · exact Or.inl a2
      · exact Or.inr ⟨e', by simp [he'], hx⟩
    · rintro x (hx | ⟨e', he', hx⟩)
      · exact (a4 x hx).trans (t2 (Or.inl rfl))
      · rcases List.mem_cons.1 he' with rfl | he'
        · rw [← hx]
          exact a3.trans (t2 (Or.inl rfl))
        · exact t2 (Or.inr ⟨e', he', hx⟩)

/-- The queue after additions only. -/
theorem adds_spec (as : List NewEvent) :
    ∃ evs, runQueue {} (as.map .add) = .ok ([], evs) ∧
      ∃ es, EventsOf 0 as es ∧ evs.q.Perm es := by
  have htot : ∀ (as : List NewEvent) (evs : Events), evs.Ok →
      ∃ evs', runQueue evs (as.map .add) = .ok ([], evs') := by
    intro as
    induction as with
    | nil => exact fun evs _ => ⟨evs, rfl⟩
    | cons a as ih =>
      intro evs h
      obtain ⟨evs1, h1, h2, _⟩ := evs.add_spec h a
      obtain ⟨evs2, h3⟩ := ih evs1 h2
      refine ⟨evs2, ?_⟩
      simp only [List.map_cons, runQueue, h1, Py.ok_bind, h3]
  obtain ⟨evs, h⟩ := htot as {} Events.ok_empty
  refine ⟨evs, h, ?_⟩
  obtain ⟨_, es, h2, h3⟩ := runQueue_spec _ _ _ _ Events.ok_empty h
  have hadd : additions (as.map .add) = as := by
    unfold additions
    induction as with
    | nil => rfl
    | cons a as ih =>
      simp only [List.map_cons, List.filterMap_cons]
      rw [List.filterMap_map]
      simp
  rw [hadd] at h2
  exact ⟨es, h2, by simpa using h3⟩

theorem forall₂_mem_left {as : List NewEvent} {es : List Event}
    (h : List.Forall₂ NewEvent.Becomes as es) {a : NewEvent} (ha : a ∈ as) :
    ∃ e ∈ es, NewEvent.Becomes a e := by
  induction h with
  | nil => simp at ha
  | cons h _ ih =>
    rcases List.mem_cons.1 ha with rfl | ha
    · exact ⟨_, by simp, h⟩
    · obtain ⟨e, he, hb⟩ := ih ha
      exact ⟨e, by simp [he], hb⟩

theorem forall₂_mem_right {as : List NewEvent} {es : List Event}
    (h : List.Forall₂ NewEvent.Becomes as es) {e : Event} (he : e ∈ es) :
    ∃ a ∈ as, NewEvent.Becomes a e := by
  induction h with
  | nil => simp at he
  | cons h _ ih =>
    rcases List.mem_cons.1 he with rfl | he
    · exact ⟨_, by simp, h⟩
    · obtain ⟨a, ha, hb⟩ := ih he
      exact ⟨a, by simp [ha], hb⟩

end Ama
