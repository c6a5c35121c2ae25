import Verif.Lemmas.BuilderLog

/-!
# Lemmas on the collected timeline: adding, shifting and filtering events
-/

namespace Ama

open Spec

theorem pushes_spec (as : List NewEvent) (evs : Events) (h : evs.Ok) :
    (as.foldl Events.push evs).Ok ∧
      ∃ es, EventsOf evs.eventId as es ∧ (as.foldl Events.push evs).q.Perm (es ++ evs.q) := by
  induction as generalizing evs with
  | nil => exact ⟨h, [], .nil _, by simp⟩
  | cons a as ih =>
    obtain ⟨evs', h1, h2, h3, h4⟩ := Events.add_spec evs h a
    rw [Events.add_eq_push] at h1
    cases h1
    obtain ⟨h5, es, h6, h7⟩ := ih _ h2
    refine ⟨h5, Events.mkEvent a (NewEvent.idWith a evs.eventId) :: es, ?_, ?_⟩
    · rw [h4] at h6
      by_cases hid : a.eventId = none
      · rw [if_pos hid] at h6
        refine .fresh _ _ _ _ _ hid ?_ (mkEvent_becomes _ _) h6
        simp [Events.mkEvent, NewEvent.idWith, hid]
      · rw [if_neg hid] at h6
        obtain ⟨i, hi⟩ := Option.ne_none_iff_exists'.1 hid
        refine .given _ i _ _ _ _ hi ?_ (mkEvent_becomes _ _) h6
        simp [Events.mkEvent, NewEvent.idWith, hi]
    · refine h7.trans ((List.Perm.append_left es h3).trans ?_)
      exact List.perm_middle

/-- Adding events to an empty queue. -/
theorem pushes_empty (as : List NewEvent) :
    (as.foldl Events.push {}).Ok ∧
      ∃ es, EventsOf 0 as es ∧ (as.foldl Events.push {}).q.Perm es := by
  obtain ⟨h1, es, h2, h3⟩ := pushes_spec as {} Events.ok_empty
  exact ⟨h1, es, h2, by simpa using h3⟩

theorem mem_pushes {as : List NewEvent} {e : Event} (he : e ∈ (as.foldl Events.push {}).q) :
    ∃ a ∈ as, NewEvent.Becomes a e := by
  obtain ⟨_, es, h2, h3⟩ := pushes_empty as
  exact forall₂_mem_right (eventsOf_forall₂ h2) (h3.mem_iff.1 he)

theorem mem_pushes_of {as : List NewEvent} {a : NewEvent} (ha : a ∈ as) :
    ∃ e ∈ (as.foldl Events.push {}).q, NewEvent.Becomes a e := by
  obtain ⟨_, es, h2, h3⟩ := pushes_empty as
  obtain ⟨e, he, hb⟩ := forall₂_mem_left (eventsOf_forall₂ h2) ha
  exact ⟨e, h3.mem_iff.2 he, hb⟩

/-- The event ids after adding to an empty queue without explicit ids are `0, 1, ...`. -/
theorem eventsOf_ids {n : ℕ} {as : List NewEvent} {es : List Event} (h : EventsOf n as es)
    (hn : ∀ a ∈ as, a.eventId = none) : es.map (·.eventId) = List.range' n es.length := by
  induction h with
  | nil => rfl
  | given n i a e as es h1 _ _ _ _ =>
    have := hn a (by simp)
    rw [this] at h1
    cases h1
  | fresh n a e as es _ h2 _ _ ih =>
    simp only [List.map_cons, List.length_cons, List.range'_succ, h2]
    rw [ih (fun a ha => hn a (List.mem_cons_of_mem _ ha))]

namespace RotationBuilder

theorem shiftLoop_spec (first : ℚ) (n : ℕ) (evs res : Events) (h : evs.Ok) (hn : evs.q.length ≤ n) :
    ∃ out, drain n evs = .ok out ∧ out.Perm evs.q ∧ out.Pairwise Before ∧
      shiftLoop first n evs res = .ok ((out.map (shiftedEvent first)).foldl Events.push res) := by
  induction n generalizing evs res with
  | zero =>
    have hq : evs.q = [] := List.length_eq_zero_iff.1 (Nat.le_zero.1 hn)
    refine ⟨[], ?_, by rw [hq], List.Pairwise.nil, ?_⟩
    · simp [drain, Events.isEmpty, hq]
    · simp [shiftLoop, Events.isEmpty, hq]
  | succ n ih =>
    by_cases hq : evs.q = []
    · refine ⟨[], ?_, by rw [hq], List.Pairwise.nil, ?_⟩
      · simp [drain, Events.isEmpty, hq]
      · simp [shiftLoop, Events.isEmpty, hq]
    · obtain ⟨e, evs', hne⟩ := Events.getNext_total hq
      obtain ⟨h1, h2, h3, _⟩ := Events.getNext_spec h hne
      have hlen : evs'.q.length ≤ n := by
        have := h2.length_eq
        simp only [List.length_cons] at this
        omega
      obtain ⟨out, g1, g2, g3, g4⟩ := ih evs' (res.push (shiftedEvent first e)) h1 hlen
      have hie : evs.isEmpty = false := by
        simp [Events.isEmpty, hq]
      refine ⟨e :: out, ?_, (g2.cons e).trans h2.symm, ?_, ?_⟩
      · rw [drain, hie]
        simp [hne, g1]
      · refine List.Pairwise.cons (fun b hb => h3 b ?_) g3
        exact h2.mem_iff.2 (List.mem_cons_of_mem _ (g2.mem_iff.1 hb))
      · rw [shiftLoop, hie]
        simp [hne, Events.add_eq_push, g4]

/-- What filtering keeps of one event. -/
def keepOne (rb : RotationBuilder) (e : Event) : Py (List NewEvent) := do
  let targets ← rb.validTargets e e.targets
  return if targets.length > 0 then [keptEvent e targets] else []

theorem removeLoop_spec (rb : RotationBuilder) (n : ℕ) (evs res : Events) (h : evs.Ok)
    (hn : evs.q.length ≤ n) :
    ∃ out, drain n evs = .ok out ∧ out.Perm evs.q ∧ out.Pairwise Before ∧
      rb.removeLoop n evs res =
        (flatM rb.keepOne out >>= fun as => .ok (as.foldl Events.push res)) := by
  induction n generalizing evs res with
  | zero =>
    have hq : evs.q = [] := List.length_eq_zero_iff.1 (Nat.le_zero.1 hn)
    refine ⟨[], ?_, by rw [hq], List.Pairwise.nil, ?_⟩
    · simp [drain, Events.isEmpty, hq]
    · simp [removeLoop, Events.isEmpty, hq, flatM]
  | succ n ih =>
    by_cases hq : evs.q = []
    · refine ⟨[], ?_, by rw [hq], List.Pairwise.nil, ?_⟩
      · simp [drain, Events.isEmpty, hq]
      · simp [removeLoop, Events.isEmpty, hq, flatM]
    · obtain ⟨e, evs', hne⟩ := Events.getNext_total hq
      obtain ⟨h1, h2, h3, _⟩ := Events.getNext_spec h hne
      have hlen : evs'.q.length ≤ n := by
        have := h2.length_eq
        simp only [List.length_cons] at this
        omega
      have hie : evs.isEmpty = false := by
        simp [Events.isEmpty, hq]
      obtain ⟨out, g1, g2, g3, _⟩ := ih evs' res h1 hlen
      refine ⟨e :: out, ?_, (g2.cons e).trans h2.symm, ?_, ?_⟩
      · rw [drain, hie]
        simp [hne, g1]
      · refine List.Pairwise.cons (fun b hb => h3 b ?_) g3
        exact h2.mem_iff.2 (List.mem_cons_of_mem _ (g2.mem_iff.1 hb))
      · rw [removeLoop, hie, flatM, keepOne]
        simp only [Bool.false_eq_true, if_false, hne, Py.ok_bind]
        cases rb.validTargets e e.targets with
        | error e => rfl
        | ok ts =>
          simp only [Py.ok_bind, Py.pure_eq]
          by_cases ht : ts.length > 0
          · simp only [ht, if_true, Events.add_eq_push, Py.ok_bind]
            obtain ⟨out', k1, _, _, k4⟩ := ih evs' (res.push (keptEvent e ts)) h1 hlen
            rw [g1] at k1
            cases k1
            rw [k4]
            cases flatM rb.keepOne out with
            | error e => rfl
            | ok as => simp
          · simp only [ht, if_false]
            obtain ⟨out', k1, _, _, k4⟩ := ih evs' res h1 hlen
            rw [g1] at k1
            cases k1
            rw [k4]
            cases flatM rb.keepOne out with
            | error e => rfl
            | ok as => simp

theorem flatM_eq_ok {A B : Type} {g : A → Py (List B)} {l : List A} {r : List B}
    (h : flatM g l = .ok r) : ∃ rs, List.Forall₂ (fun a x => g a = .ok x) l rs ∧ r = rs.flatten := by
  induction l generalizing r with
  | nil =>
    cases h
    exact ⟨[], .nil, rfl⟩
  | cons a l ih =>
    unfold flatM at h
    obtain ⟨x, hx, h⟩ := Py.bind_eq_ok.1 h
    obtain ⟨y, hy, h⟩ := Py.bind_eq_ok.1 h
    cases h
    obtain ⟨rs, h1, rfl⟩ := ih hy
    exact ⟨x :: rs, .cons hx h1, rfl⟩

theorem mem_flatM {A B : Type} {g : A → Py (List B)} {l : List A} {r : List B}
    (h : flatM g l = .ok r) {b : B} : b ∈ r ↔ ∃ a ∈ l, ∃ x, g a = .ok x ∧ b ∈ x := by
  induction l generalizing r with
  | nil =>
    cases h
    simp
  | cons a l ih =>
    unfold flatM at h
    obtain ⟨x, hx, h⟩ := Py.bind_eq_ok.1 h
    obtain ⟨y, hy, h⟩ := Py.bind_eq_ok.1 h
    cases h
    rw [List.mem_append, ih hy]
    constructor
    · rintro (hb | ⟨a', ha', z, hz, hb⟩)
      · exact ⟨a, by simp, x, hx, hb⟩
      · exact ⟨a', by simp [ha'], z, hz, hb⟩
    · rintro ⟨a', ha', z, hz, hb⟩
      rcases List.mem_cons.1 ha' with rfl | ha'
      · rw [hx] at hz
        cases hz
        exact .inl hb
      · exact .inr ⟨a', ha', z, hz, hb⟩

end RotationBuilder

end Ama
