import Verif.Lemmas.BuilderTimes
import Verif.Spec.Timeline

/-!
# Lemmas on normalisation and downtime
-/

namespace Ama

open Spec

theorem appliedAt_eq (e : Event) : appliedAt e = Events.applicationTime e := by
  unfold appliedAt Events.applicationTime
  cases e.secondary <;> rfl

theorem good_of_runQueue {ops : List QueueOp} {out : List Event} {evs : Events}
    (h : runQueue {} ops = .ok (out, evs)) : evs.Good := by
  obtain ⟨h1, es, h2, h3⟩ := runQueue_spec _ _ _ _ Events.ok_empty h
  refine ⟨h1, fun e he => ?_⟩
  have he' : e ∈ es := by
    have := h3.mem_iff.1 (List.mem_append_right out he)
    simpa using this
  obtain ⟨a, _, hb⟩ := forall₂_mem_right (eventsOf_forall₂ h2) he'
  exact becomes_normal hb

theorem firstDamage_ok {l : List Event} {acc r : Option ℚ}
    (h : l.foldlM Events.firstDamageStep acc = .ok r) :
    ∀ e ∈ l, ∃ s, e.skill.getDamageSpec e.modifier = .ok s := by
  induction l generalizing acc with
  | nil => simp
  | cons x l ih =>
    rw [Py.foldlM_cons] at h
    obtain ⟨acc', h1, h2⟩ := Py.bind_eq_ok.1 h
    intro e he
    rcases List.mem_cons.1 he with rfl | he
    · unfold Events.firstDamageStep at h1
      obtain ⟨s, hs, _⟩ := Py.bind_eq_ok.1 h1
      exact ⟨s, hs⟩
    · exact ih h2 e he

/-- What `get_first_damage_time` returns. -/
theorem firstDamage_spec {evs : Events} {r : Option ℚ} (h : evs.getFirstDamageTime = .ok r) :
    (r = none ↔ ∀ e ∈ evs.q, ¬ Damaging e) ∧ ∀ t, r = some t → IsLeast (damageTimes evs) t := by
  unfold Events.getFirstDamageTime at h
  have hok := firstDamage_ok h
  obtain ⟨r', h1, h2, h3⟩ := firstDamage_fold evs.q none hok
  rw [h] at h1
  cases h1
  constructor
  · rw [h2]
    constructor
    · rintro ⟨_, h4⟩ e he ⟨s, hs⟩
      rw [h4 e he] at hs
      cases hs
    · refine fun h4 => ⟨rfl, fun e he => ?_⟩
      obtain ⟨s, hs⟩ := hok e he
      cases s with
      | none => exact hs
      | some s => exact absurd ⟨s, hs⟩ (h4 e he)
  · intro t ht
    have := h3 t ht
    have hset : damageTimes evs = ({x | (none : Option ℚ) = some x} ∪
        {x | ∃ e ∈ evs.q, (∃ s, e.skill.getDamageSpec e.modifier = .ok (some s)) ∧
          Events.applicationTime e = x}) := by
      ext x
      simp only [damageTimes, Damaging, Set.mem_union, Set.mem_ofPred_eq, reduceCtorEq, false_or,
        appliedAt_eq]
    rw [hset]
    exact this

theorem forall₂_perm_left {α β : Type} {R : α → β → Prop} {l l' : List α} {m : List β}
    (hp : l.Perm l') (h : List.Forall₂ R l m) : ∃ m', List.Forall₂ R l' m' ∧ m.Perm m' := by
  induction hp generalizing m with
  | nil => cases h; exact ⟨[], .nil, .refl _⟩
  | cons x _ ih =>
    cases h with
    | cons h1 h2 =>
      obtain ⟨m', h3, h4⟩ := ih h2
      exact ⟨_ :: m', .cons h1 h3, h4.cons _⟩
  | swap x y l =>
    cases h with
    | cons h1 h2 =>
      cases h2 with
      | cons h2 h3 => exact ⟨_ :: _ :: _, .cons h2 (.cons h1 h3), .swap _ _ _⟩
  | trans _ _ ih1 ih2 =>
    obtain ⟨m1, h1, h2⟩ := ih1 h
    obtain ⟨m2, h3, h4⟩ := ih2 h1
    exact ⟨m2, h3, h2.trans h4⟩

theorem changed_perm {α β : Type} {R : α → β → Prop} {l l' : List α} {m m' : List β}
    (hp : l.Perm l') (hm : m.Perm m') (h : Changed R l m) : Changed R l' m' := by
  obtain ⟨n, h1, h2⟩ := h
  obtain ⟨n', h3, h4⟩ := forall₂_perm_left hp h1
  exact ⟨n', h3, (h4.symm.trans h2).trans hm⟩

theorem changed_mem_right {α β : Type} {R : α → β → Prop} {l : List α} {m : List β}
    (h : Changed R l m) {y : β} (hy : y ∈ m) : ∃ x ∈ l, R x y := by
  obtain ⟨n, h1, h2⟩ := h
  have hy := h2.mem_iff.2 hy
  clear h2
  induction h1 with
  | nil => simp at hy
  | cons h3 _ ih =>
    rcases List.mem_cons.1 hy with rfl | hy
    · exact ⟨_, by simp, h3⟩
    · obtain ⟨x, hx, hr⟩ := ih hy
      exact ⟨x, by simp [hx], hr⟩

theorem changed_mem_left {α β : Type} {R : α → β → Prop} {l : List α} {m : List β}
    (h : Changed R l m) {x : α} (hx : x ∈ l) : ∃ y ∈ m, R x y := by
  obtain ⟨n, h1, h2⟩ := h
  suffices ∃ y ∈ n, R x y by
    obtain ⟨y, hy, hr⟩ := this
    exact ⟨y, h2.mem_iff.1 hy, hr⟩
  clear h2
  induction h1 with
  | nil => simp at hx
  | cons h3 _ ih =>
    rcases List.mem_cons.1 hx with rfl | hx
    · exact ⟨_, by simp, h3⟩
    · obtain ⟨y, hy, hr⟩ := ih hx
      exact ⟨y, by simp [hy], hr⟩

/-- Adding events, one for each of `out`, to an empty queue. -/
theorem changed_pushes {R : Event → Event → Prop} {f : Event → NewEvent} {out : List Event}
    (hr : ∀ e ∈ out, ∀ e', NewEvent.Becomes (f e) e' → R e e') :
    Changed R out ((out.map f).foldl Events.push {}).q := by
  obtain ⟨h0, es, h1, h2⟩ := pushes_empty (out.map f)
  refine ⟨es, ?_, h2.symm⟩
  have h3 := eventsOf_forall₂ h1
  rw [List.forall₂_map_left_iff] at h3
  clear h0 h1 h2
  induction h3 with
  | nil => exact .nil
  | cons h4 _ ih =>
    exact .cons (hr _ (by simp) _ h4) (ih (fun e he => hr e (by simp [he])))

namespace RotationBuilder

variable {fuel : ℕ} {rb rb' : RotationBuilder}

theorem shifted_moved {δ : ℚ} {e e' : Event} (hn : e.secondary ≠ some e.primary)
    (h : NewEvent.Becomes (shiftedEvent δ e) e') :
    MovedEarlier δ (Utils.transformTimeToPrio δ) e e' := by
  obtain ⟨h1, h2, h3⟩ := shifted_derived hn h
  exact ⟨h3, h1.primary, h1.secondary, h1.skill, h1.modifier, h1.buffs, h1.debuffs, h2⟩

theorem moved_appliedAt {δ : ℚ} {k : ℤ} {e e' : Event} (h : MovedEarlier δ k e e') :
    appliedAt e' = appliedAt e - δ := by
  unfold appliedAt
  rw [h.secondary, h.primary]
  cases e.secondary <;> rfl

theorem moved_damaging {δ : ℚ} {k : ℤ} {e e' : Event} (h : MovedEarlier δ k e e') :
    Damaging e' ↔ Damaging e := by
  unfold Damaging
  rw [h.skill, h.modifier]

theorem before_total (a b : Event) : Before a b ∨ Before b a := by
  unfold Before
  rcases lt_trichotomy a.priority b.priority with h | h | h
  · exact .inl (.inl h)
  · rcases le_total a.skill.name b.skill.name with h' | h'
    · exact .inl (.inr ⟨h, h'⟩)
    · exact .inr (.inr ⟨h.symm, h'⟩)
  · exact .inr (.inl h)

theorem ranks_of_sorted {l l' : List (ℤ × String)} (hp : l.Perm l')
    (h : l.Pairwise (fun a b => a.1 < b.1 ∨ (a.1 = b.1 ∧ a.2 ≤ b.2)))
    (h' : l'.Pairwise (fun a b => a.1 < b.1 ∨ (a.1 = b.1 ∧ a.2 ≤ b.2))) : l = l' := by
  refine hp.eq_of_pairwise ?_ h h'
  rintro ⟨a1, a2⟩ ⟨b1, b2⟩ _ _ h1 h2
  simp only at h1 h2
  rcases h1 with h1 | ⟨h1, h1'⟩ <;> rcases h2 with h2 | ⟨h2, h2'⟩
  · omega
  · omega
  · omega
  · rw [h1, le_antisymm h1' h2']

/-- The effect of `shift_timelines_for_first_damage_instance`. -/
theorem shift_spec (hg : rb.events.Good) (h : rb.shiftTimelines = .ok rb') :
    ((∀ e ∈ rb.events.q, ¬ Damaging e) ∧ rb' = rb) ∨
    ∃ first, IsLeast (damageTimes rb.events) first ∧
      Changed (MovedEarlier first (Utils.transformTimeToPrio first)) rb.events.q rb'.events.q ∧
      rb'.presses = rb.presses.map (earlier first) ∧
      rb' = { rb with events := rb'.events, presses := rb'.presses } ∧ rb'.events.Good := by
  rcases shiftTimelines_spec hg h with ⟨h1, h2⟩ | ⟨first, out, h1, h2, _, _, rfl⟩
  · exact .inl ⟨(firstDamage_spec h1).1.1 rfl, h2⟩
  · refine .inr ⟨first, (firstDamage_spec h1).2 _ rfl, ?_, rfl, rfl, Events.good_push Events.good_empty _⟩
    refine changed_perm h2 (.refl _) (changed_pushes fun e he e' hb => ?_)
    exact shifted_moved (hg.2 e (h2.mem_iff.1 he)) hb

/-- After the shift the first damage lands at 0. -/
theorem first_at_zero {evs evs' : Events} {first : ℚ} {k : ℤ} (h : IsLeast (damageTimes evs) first)
    (hc : Changed (MovedEarlier first k) evs.q evs'.q) : IsLeast (damageTimes evs') 0 := by
  constructor
  · obtain ⟨e, he, hd, ha⟩ := h.1
    obtain ⟨e', he', hm⟩ := changed_mem_left hc he
    exact ⟨e', he', (moved_damaging hm).2 hd, by rw [moved_appliedAt hm, ha, sub_self]⟩
  · rintro x ⟨e', he', hd, rfl⟩
    obtain ⟨e, he, hm⟩ := changed_mem_right hc he'
    have := h.2 ⟨e, he, (moved_damaging hm).1 hd, rfl⟩
    rw [moved_appliedAt hm]
    linarith

/-- Moving all events keeps the order of processing. -/
theorem ranks_moved {evs evs' : Events} {δ : ℚ} {k : ℤ} {out out' : List Event} (hg : evs.Ok)
    (hg' : evs'.Ok) (hc : Changed (MovedEarlier δ k) evs.q evs'.q)
    (h : drain evs.q.length evs = .ok out) (h' : drain evs'.q.length evs' = .ok out') :
    out'.map Event.rank = out.map (fun e => (e.priority - k, e.skill.name)) := by
  obtain ⟨o, h1, h2, h3⟩ := drain_spec _ evs hg le_rfl
  obtain ⟨o', h1', h2', h3'⟩ := drain_spec _ evs' hg' le_rfl
  rw [h] at h1
  rw [h'] at h1'
  cases h1
  cases h1'
  refine ranks_of_sorted ?_ ?_ ?_
  · obtain ⟨m, m1, m2⟩ := hc
    refine (h2'.map _).trans ((m2.symm.map _).trans ?_)
    have : m.map Event.rank = evs.q.map (fun e => (e.priority - k, e.skill.name)) := by
      clear m2 h h2 h3 h2' h3' h' hg hg'
      generalize evs.q = q at m1
      induction m1 with
      | nil => rfl
      | cons hm _ ih =>
        simp only [List.map_cons, ih, Event.rank, hm.priority, hm.skill]
    rw [this]
    exact h2.symm.map _
  · rw [List.pairwise_map]
    exact h3'
  · rw [List.pairwise_map]
    refine h3.imp ?_
    rintro a b (hb | hb)
    · left
      simp only
      omega
    · right
      simp only
      exact ⟨by omega, hb.2⟩

/-! ## Downtime -/

theorem inDowntime_spec {t : ℚ} {target : String} {cls : DamageClass} {b : Bool}
    (h : rb.inDowntime t target cls = .ok b) :
    b = true ↔ Covered (downtimeOf rb target) t cls := by
  unfold inDowntime at h
  obtain ⟨ws, h1, h⟩ := Py.bind_eq_ok.1 h
  have hws : downtimeOf rb target = ws := by
    unfold windowsFor at h1
    unfold downtimeOf
    cases hd : rb.downtime with
    | tuple ws' => rw [hd] at h1; cases h1
    | dict d => rw [hd] at h1; cases h1; rfl
    | known ts ws' => rw [hd] at h1; cases h1; rfl
  cases h
  rw [hws, List.any_eq_true]
  unfold Covered
  simp only [Bool.and_eq_true, decide_eq_true_eq, Bool.or_eq_true, Option.isNone_iff_eq_none,
    and_assoc]

theorem targetKept_spec {e : Event} {target : String} {b : Bool}
    (h : rb.targetKept e target = .ok b) : b = true ↔ Unaffected rb e target := by
  unfold targetKept at h
  obtain ⟨spec, h1, h⟩ := Py.bind_eq_ok.1 h
  unfold Unaffected
  cases spec with
  | none =>
    cases h
    simp [h1]
  | some spec =>
    simp only at h
    obtain ⟨b1, h2, h⟩ := Py.bind_eq_ok.1 h
    have g1 := inDowntime_spec h2
    rw [← appliedAt_eq] at g1
    cases b1 with
    | true =>
      simp only [if_true] at h
      cases h
      simp only [Bool.false_eq_true, false_iff]
      rintro (h3 | ⟨s, h3, h4, _⟩)
      · rw [h1] at h3
        cases h3
      · rw [h1] at h3
        cases h3
        exact h4 (g1.1 rfl)
    | false =>
      simp only [Bool.false_eq_true, if_false] at h
      obtain ⟨b2, h3, h⟩ := Py.bind_eq_ok.1 h
      have g2 := inDowntime_spec h3
      cases h
      constructor
      · intro hb
        refine .inr ⟨spec, h1, fun hc => ?_, fun hc => ?_⟩
        · have := g1.2 hc
          cases this
        · rw [g2.2 hc] at hb
          cases hb
      · rintro (h4 | ⟨s, h4, _, h6⟩)
        · rw [h1] at h4
          cases h4
        · rw [h1] at h4
          cases h4
          cases b2 with
          | false => rfl
          | true => exact absurd (g2.1 rfl) h6

theorem validTargets_spec {e : Event} {ts ts' : List String} (h : rb.validTargets e ts = .ok ts') :
    ts' = ts.filter (fun target => @decide (Unaffected rb e target) (Classical.dec _)) := by
  induction ts generalizing ts' with
  | nil => cases h; rfl
  | cons t ts ih =>
    unfold validTargets at h
    obtain ⟨b, h1, h⟩ := Py.bind_eq_ok.1 h
    obtain ⟨rest, h2, h⟩ := Py.bind_eq_ok.1 h
    cases h
    have g := targetKept_spec h1
    rw [List.filter_cons, ← ih h2]
    cases b with
    | true => simp [g.1 rfl]
    | false =>
      have : ¬ Unaffected rb e t := fun hc => by cases g.2 hc
      simp [this]

theorem keepOne_spec {e : Event} {as : List NewEvent} (h : rb.keepOne e = .ok as) :
    as = if spared rb e = [] then [] else [keptEvent e (spared rb e)] := by
  unfold keepOne at h
  obtain ⟨ts, h1, h⟩ := Py.bind_eq_ok.1 h
  have h2 : ts = spared rb e := validTargets_spec h1
  subst h2
  cases h
  by_cases hr : spared rb e = []
  · simp [hr]
  · rw [if_neg hr, if_pos (List.length_pos_iff.2 hr)]

open Classical in
theorem flatM_keepOne {out : List Event} {as : List NewEvent} (h : flatM rb.keepOne out = .ok as) :
    as = (out.filter (fun e => decide (spared rb e ≠ []))).map
      (fun e => keptEvent e (spared rb e)) := by
  induction out generalizing as with
  | nil => cases h; rfl
  | cons e out ih =>
    unfold flatM at h
    obtain ⟨as1, h1, h⟩ := Py.bind_eq_ok.1 h
    obtain ⟨as2, h2, h⟩ := Py.bind_eq_ok.1 h
    cases h
    rw [keepOne_spec h1, ih h2, List.filter_cons]
    by_cases hr : spared rb e = []
    · simp [hr]
    · simp [hr]

open Classical in
/-- The effect of `remove_damage_during_downtime`. -/
theorem remove_spec (hg : rb.events.Good) (h : rb.removeDamageDuringDowntime = .ok rb') :
    Changed (fun e e' => WithTargets (spared rb e) e e')
      (rb.events.q.filter (fun e => decide (spared rb e ≠ []))) rb'.events.q ∧
      rb' = { rb with events := rb'.events } ∧ rb'.events.Good := by
  obtain ⟨out, as, h1, _, _, h4, rfl⟩ := removeDamage_spec hg h
  refine ⟨?_, rfl, Events.good_push Events.good_empty _⟩
  rw [flatM_keepOne h4]
  refine changed_perm (h1.filter _) (.refl _) (changed_pushes fun e he e' hb => ?_)
  have he' := h1.mem_iff.1 (List.mem_filter.1 he).1
  obtain ⟨g1, g2, g3⟩ := kept_derived (hg.2 e he') List.filter_sublist hb
  refine ⟨g3, ?_, ?_, g1.skill, g1.modifier, g1.buffs, g1.debuffs, g2⟩
  · rw [g1.primary, sub_zero]
  · rw [g1.secondary]
    simp

end RotationBuilder

end Ama
