import Verif.Lemmas.DamageEffects

/-!
# Lemmas: effects with limited uses during executions of the damage builder
-/

namespace Ama

open Spec DamageBuilder StatusEffectTracker

theorem perm_of_mem {α : Type} {a : α} {l : List α} (h : a ∈ l) : ∃ t, l.Perm (a :: t) := by
  obtain ⟨l1, l2, rfl⟩ := List.append_of_mem h
  exact ⟨l1 ++ l2, List.perm_middle⟩

/-- The entry of the effect agrees with `n` uses of which `k` were eaten, until `endT`. -/
structure SimUses (spec : StatusEffectSpec) (endT : WithTop ℚ) (t : ℚ) (a : Option ActiveEffect) (k : ℕ) :
    Prop where
  run : ∀ e, a = some e → 0 ≤ e.uses ∧ e.uses + (k : ℤ) = spec.numUses ∧ e.spec = spec ∧ e.start ≤ t ∧
    e.endT = endT
  over : a = none → endT < (t : WithTop ℚ) ∨ spec.numUses ≤ (k : ℤ)

theorem SimUses.expire {spec : StatusEffectSpec} {endT : WithTop ℚ} {t t' : ℚ}
    {a : Option ActiveEffect} {k : ℕ} (h : SimUses spec endT t a k) (ht : t ≤ t') :
    SimUses spec endT t' (a.filter (fun e => (t' : WithTop ℚ) ≤ e.endT ∧ e.uses ≠ 0)) k ∧
      ∀ e, a.filter (fun e => (t' : WithTop ℚ) ≤ e.endT ∧ e.uses ≠ 0) = some e →
        (t' : WithTop ℚ) ≤ endT ∧ 0 < e.uses := by
  have hl : ∀ e, a.filter (fun e => (t' : WithTop ℚ) ≤ e.endT ∧ e.uses ≠ 0) = some e →
      a = some e ∧ (t' : WithTop ℚ) ≤ e.endT ∧ e.uses ≠ 0 := by
    intro e he
    rw [Option.filter_eq_some_iff] at he
    simp only [decide_eq_true_eq] at he
    exact he
  refine ⟨⟨fun e he => ?_, fun hn => ?_⟩, fun e he => ?_⟩
  · obtain ⟨h1, h2, h3, h4, h5⟩ := h.run e (hl e he).1
    exact ⟨h1, h2, h3, h4.trans ht, h5⟩
  · cases ha : a with
    | none =>
      rcases h.over ha with h1 | h1
      · exact .inl (h1.trans_le (WithTop.coe_le_coe.2 ht))
      · exact .inr h1
    | some e =>
      obtain ⟨h1, h2, h3, h4, h5⟩ := h.run e ha
      rw [ha, Option.filter_eq_none_iff] at hn
      have := hn e rfl
      simp only [decide_eq_true_eq, not_and_or, not_le, not_not] at this
      rcases this with h6 | h6
      · exact .inl (h5 ▸ h6)
      · rw [h6, zero_add] at h2
        exact .inr h2.ge
  · obtain ⟨h1, h2, h3⟩ := hl e he
    obtain ⟨h4, -, -, -, h5⟩ := h.run e h1
    exact ⟨h5 ▸ h2, lt_of_le_of_ne h4 (Ne.symm h3)⟩

open Classical in
theorem SimUses.use {spec : StatusEffectSpec} {endT : WithTop ℚ} {t : ℚ} {a : Option ActiveEffect}
    {k : ℕ} (h : SimUses spec endT t a k)
    (hl : ∀ e, a = some e → (t : WithTop ℚ) ≤ endT ∧ 0 < e.uses) (skill : SkillCore) (name : String) :
    SimUses spec endT t (useEntry t skill name a) (if Allowed skill name spec then k + 1 else k) := by
  unfold useEntry
  cases a with
  | none =>
    refine ⟨by simp, fun _ => ?_⟩
    rcases h.over rfl with h1 | h1
    · exact .inl h1
    · right
      refine h1.trans ?_
      split_ifs
      · exact_mod_cast (by omega : (k : ℤ) ≤ k + 1)
      · exact le_refl _
  | some e =>
    obtain ⟨h1, h2, h3, h4, h5⟩ := h.run e rfl
    obtain ⟨-, h6⟩ := hl e rfl
    refine ⟨?_, by simp⟩
    intro e' he'
    simp only [Option.map_some, Option.some.injEq] at he'
    subst he'
    rw [h3]
    by_cases ha : Allowed skill name spec
    · rw [if_pos ⟨h4, ha⟩, if_pos ha]
      refine ⟨?_, ?_, h3, h4, h5⟩
      · unfold ActiveEffect.used decUses
        cases hu : e.uses with
        | top => simp
        | coe u =>
          rw [hu] at h6
          have : (0 : ℤ) < u := by exact_mod_cast h6
          simp only [WithTop.map_coe]
          exact_mod_cast (by omega : (0 : ℤ) ≤ u - 1)
      · rw [← h2]
        unfold ActiveEffect.used decUses
        cases hu : e.uses with
        | top => simp
        | coe u =>
          simp only [WithTop.map_coe]
          exact_mod_cast (by omega : u - 1 + ((k + 1 : ℕ) : ℤ) = u + k)
    · rw [if_neg (fun h => ha h.2), if_neg ha]
      exact ⟨h1, h2, h3, h4, h5⟩

/-- The entry eats a use of the effect if there is one. -/
def EatsNow (slot : Slot) (name : String) (spec : StatusEffectSpec) (e : Event) : Prop :=
  takes e slot = true ∧ Allowed e.skill.toSkillCore name spec

open Classical in
/-- The eaten uses in an execution. -/
noncomputable def eatenIn (slot : Slot) (name : String) (spec : StatusEffectSpec)
    (tr : List (DamageState × Event)) : List ℚ :=
  (tr.filter (fun p => decide (EatsNow slot name spec p.2))).map (·.2.primary)

/-- An iteration before the effect is given. -/
theorem processEvent_absent {slot : Slot} {name : String} {spec : StatusEffectSpec}
    {s s' : DamageState} {e : Event}
    (he : QueueOk slot name spec e) (hwf : WellFormed s.db.se) (hp : name ∉ s.db.se.priority)
    (ha : entry s.db.se slot name = none) (hg : ¬ (e.secondary.isNone ∧ GivesTo slot name e))
    (h : processEvent s e = .ok s') :
    WellFormed s'.db.se ∧ s'.db.se.priority = s.db.se.priority ∧ entry s'.db.se slot name = none := by
  have h0 : entry (startSe s e) slot name = none := by
    rw [entry_expire hwf, ha]
    rfl
  have hwf0 : WellFormed (startSe s e) := expire_wf hwf _
  have hp0 : name ∉ (startSe s e).priority := hp
  unfold processEvent at h
  simp only at h
  cases hsec : e.secondary with
  | none =>
    rw [hsec] at h hg
    obtain ⟨se, m, h1, h2⟩ := applyEvent_used name he.nodup hsec h
    obtain ⟨a1, a2, a3⟩ := h1 hwf0 hp0
    have a3 := a3 slot
    rw [h0] at a3
    have hgl := he.gives.2 (fun h => hg ⟨rfl, h⟩)
    refine ⟨add_wf a1 h2, (priority_add h2).trans a2, ?_⟩
    have h3 := get?_add_leaves h2 (hgl e.primary m)
    unfold entry at a3 ⊢
    rw [h3, a3]
    simp [useEntry]
  | some sec =>
    rw [hsec] at h
    obtain ⟨a1, a2, a3⟩ := snapshotEvent_used name he.nodup hsec h hwf0 hp0
    have a3 := a3 slot
    rw [h0] at a3
    refine ⟨a1, a2, ?_⟩
    rw [a3]
    simp [useEntry]

/-- The iteration that gives the effect. -/
theorem processEvent_given {slot : Slot} {name : String} {spec : StatusEffectSpec}
    (hx : spec.extendOnly = false) (h0u : 0 ≤ spec.numUses) {s s' : DamageState} {e : Event}
    (he : QueueOk slot name spec e) (hwf : WellFormed s.db.se) (hp : name ∉ s.db.se.priority)
    (ha : entry s.db.se slot name = none) (hsec : e.secondary = none) (hg : GivesTo slot name e)
    (h : processEvent s e = .ok s') :
    WellFormed s'.db.se ∧ s'.db.se.priority = s.db.se.priority ∧
      SimUses spec (e.primary + spec.duration) e.primary (entry s'.db.se slot name) 0 := by
  have h0 : entry (startSe s e) slot name = none := by
    rw [entry_expire hwf, ha]
    rfl
  have hwf0 : WellFormed (startSe s e) := expire_wf hwf _
  have hp0 : name ∉ (startSe s e).priority := hp
  unfold processEvent at h
  simp only at h
  rw [hsec] at h
  obtain ⟨se, m, h1, h2⟩ := applyEvent_used name he.nodup hsec h
  obtain ⟨a1, a2, a3⟩ := h1 hwf0 hp0
  have a3 := a3 slot
  rw [h0] at a3
  have a3 : entry se slot name = none := by
    rw [a3]
    simp [useEntry]
  refine ⟨add_wf a1 h2, (priority_add h2).trans a2, ?_⟩
  have hname : e.skill.name = name := hg.1
  have := get?_grant_fresh (he.gives.1 hg m) hx (by
    rw [hname]
    exact Dict.get?_eq_none.1 a3) h2
  rw [hname] at this
  unfold entry
  rw [this]
  refine ⟨?_, by simp⟩
  intro e' he'
  cases he'
  exact ⟨h0u, by simp, rfl, le_refl _, rfl⟩

open Classical in
/-- An iteration after the effect was given. -/
theorem processEvent_uses {slot : Slot} {name : String} {spec : StatusEffectSpec}
    {s s' : DamageState} {e : Event} {t : ℚ} {endT : WithTop ℚ} {k : ℕ}
    (he : QueueOk slot name spec e) (hwf : WellFormed s.db.se) (hp : name ∉ s.db.se.priority)
    (ht : t ≤ e.primary) (hsim : SimUses spec endT t (entry s.db.se slot name) k)
    (hg : ¬ (e.secondary.isNone ∧ GivesTo slot name e)) (h : processEvent s e = .ok s') :
    (SimUses spec endT e.primary (entry (startSe s e) slot name) k ∧
      ∀ a, entry (startSe s e) slot name = some a → (e.primary : WithTop ℚ) ≤ endT ∧ 0 < a.uses) ∧
    WellFormed s'.db.se ∧ s'.db.se.priority = s.db.se.priority ∧
    SimUses spec endT e.primary (entry s'.db.se slot name)
      (if EatsNow slot name spec e then k + 1 else k) := by
  have h0 := hsim.expire ht
  rw [← entry_expire hwf] at h0
  have hwf0 : WellFormed (startSe s e) := expire_wf hwf _
  have hp0 : name ∉ (startSe s e).priority := hp
  refine ⟨h0, ?_⟩
  have huse := h0.1.use h0.2 e.skill.toSkillCore name
  have key : ∀ a, a = (if takes e slot = true
      then useEntry e.primary e.skill.toSkillCore name (entry (startSe s e) slot name)
      else entry (startSe s e) slot name) →
      SimUses spec endT e.primary a (if EatsNow slot name spec e then k + 1 else k) := by
    rintro a rfl
    unfold EatsNow
    by_cases htk : takes e slot = true
    · simp only [htk, if_true, true_and]
      exact huse
    · simp only [htk, false_and, if_false]
      exact h0.1
  unfold processEvent at h
  simp only at h
  cases hsec : e.secondary with
  | none =>
    rw [hsec] at h hg
    obtain ⟨se, m, h1, h2⟩ := applyEvent_used name he.nodup hsec h
    obtain ⟨a1, a2, a3⟩ := h1 hwf0 hp0
    have hgl := he.gives.2 (fun h => hg ⟨rfl, h⟩)
    refine ⟨add_wf a1 h2, (priority_add h2).trans a2, ?_⟩
    have h3 := get?_add_leaves h2 (hgl e.primary m)
    apply key
    rw [← a3 slot]
    exact h3
  | some sec =>
    rw [hsec] at h
    obtain ⟨a1, a2, a3⟩ := snapshotEvent_used name he.nodup hsec h hwf0 hp0
    exact ⟨a1, a2, key _ (a3 slot)⟩

theorem eatenIn_cons (slot : Slot) (name : String) (spec : StatusEffectSpec)
    (p : DamageState × Event) (tr : List (DamageState × Event)) [Decidable (EatsNow slot name spec p.2)] :
    eatenIn slot name spec (p :: tr) =
      (if EatsNow slot name spec p.2 then [p.2.primary] else []) ++ eatenIn slot name spec tr := by
  classical
  unfold eatenIn
  rw [List.filter_cons]
  by_cases h : EatsNow slot name spec p.2
  · rw [if_pos (by simpa using h), if_pos h]
    rfl
  · rw [if_neg (by simpa using h), if_neg h]
    rfl

open Classical in
/-- After the effect was given: what each iteration starts with. -/
theorem reaches_uses {slot : Slot} {name : String} {spec : StatusEffectSpec}
    {s s' : DamageState} {tr : List (DamageState × Event)} (h : Reaches s tr s') (ho : s.events.Ok)
    (hq : ∀ b ∈ s.events.q, QueueOk slot name spec b) (hwf : WellFormed s.db.se)
    (hp : name ∉ s.db.se.priority) (hng : givenIn slot name tr = []) {t : ℚ} {endT : WithTop ℚ} {k : ℕ}
    (hlow : ∀ p ∈ tr, t ≤ p.2.primary) (hsorted : tr.Pairwise (fun p p' => p.2.primary ≤ p'.2.primary))
    (hsim : SimUses spec endT t (entry s.db.se slot name) k) :
    ∀ l p r, tr = l ++ p :: r →
      WellFormed (startSe p.1 p.2) ∧ name ∉ (startSe p.1 p.2).priority ∧
      SimUses spec endT p.2.primary (entry (startSe p.1 p.2) slot name)
        (k + (eatenIn slot name spec l).length) ∧
      ∀ a, entry (startSe p.1 p.2) slot name = some a →
        (p.2.primary : WithTop ℚ) ≤ endT ∧ 0 < a.uses := by
  induction h generalizing t k with
  | refl s =>
    intro l p r hl
    simp at hl
  | step s s1 s2 e evs tr h1 h2 h3 ih =>
    obtain ⟨o1, o2, o3, -⟩ := Events.getNext_spec ho h1
    have hee : e ∈ s.events.q := o2.mem_iff.2 (by simp)
    have hqe := hq e hee
    have hq1 := processEvent_queueOk (s := { s with events := evs }) o1 hqe
      (fun b hb => hq b (o2.mem_iff.2 (List.mem_cons_of_mem _ hb))) h2
    rw [givenIn_cons, List.append_eq_nil_iff] at hng
    have hg : ¬ (e.secondary.isNone ∧ GivesTo slot name e) := by
      intro hg
      rw [if_pos hg] at hng
      simp at hng
    obtain ⟨c0, c1, c2, c3⟩ := processEvent_uses (s := { s with events := evs }) hqe hwf hp
      (hlow _ List.mem_cons_self) hsim hg h2
    rw [List.pairwise_cons] at hsorted
    have ih := ih (processEvent_queue (s := { s with events := evs }) o1 h2).1 hq1 c1
      (by rw [c2]; exact hp) hng.2 (fun p hp => hsorted.1 p hp) hsorted.2 c3
    intro l p r hl
    cases l with
    | nil =>
      simp only [List.nil_append, List.cons.injEq] at hl
      obtain ⟨rfl, -⟩ := hl
      exact ⟨expire_wf hwf _, hp, by simpa [eatenIn] using c0.1, c0.2⟩
    | cons p' l =>
      simp only [List.cons_append, List.cons.injEq] at hl
      obtain ⟨rfl, hl⟩ := hl
      obtain ⟨i1, i2, i3, i4⟩ := ih l p r hl
      refine ⟨i1, i2, ?_, i4⟩
      rw [eatenIn_cons, List.length_append]
      split_ifs at i3 ⊢ with hc
      · rw [List.length_singleton, ← add_assoc]
        exact i3
      · rw [List.length_nil, zero_add]
        exact i3

/-- What is asked for in an iteration. -/
theorem seen_uses {slot : Slot} {name : String} {spec : StatusEffectSpec} {s : DamageState}
    {e : Event} {endT : WithTop ℚ} {k : ℕ} (hwf : WellFormed (startSe s e))
    (hp : name ∉ (startSe s e).priority)
    (hsim : SimUses spec endT e.primary (entry (startSe s e) slot name) k)
    (hl : ∀ a, entry (startSe s e) slot name = some a → (e.primary : WithTop ℚ) ≤ endT ∧ 0 < a.uses)
    {agg : StatusEffects} {c : String} {se : StatusEffectTracker}
    (h : slot.compile (startSe s e) e.primary e.skill.toSkillCore = .ok ((agg, c), se)) :
    name ∈ agg.statusEffects ↔ Allowed e.skill.toSkillCore name spec ∧
      (e.primary : WithTop ℚ) ≤ endT ∧ ((k : ℤ) : WithTop ℤ) < spec.numUses := by
  obtain ⟨-, -, -, h1⟩ := compile_entry hwf hp h
  rw [h1]
  constructor
  · rintro ⟨a, h2, h3, h4⟩
    obtain ⟨b1, b2, b3, b4, b5⟩ := hsim.run a h2
    obtain ⟨d1, d2⟩ := hl a h2
    rw [b3] at h4
    refine ⟨h4, d1, ?_⟩
    rw [← b2]
    cases hu : a.uses with
    | top => simp
    | coe u =>
      rw [hu] at d2
      have : (0 : ℤ) < u := by exact_mod_cast d2
      exact_mod_cast (by omega : (k : ℤ) < u + k)
  · rintro ⟨h2, h3, h4⟩
    cases ha : entry (startSe s e) slot name with
    | none =>
      rcases hsim.over ha with h5 | h5
      · exact absurd h5 (not_lt.2 h3)
      · exact absurd h4 (not_lt.2 h5)
    | some a =>
      obtain ⟨b1, b2, b3, b4, b5⟩ := hsim.run a ha
      exact ⟨a, rfl, b4, by rw [b3]; exact h2⟩

/-! ## Uses in an execution -/

theorem takes_iff {e : Event} {slot : Slot} {b : Bool} (h : slot.status e = .flag b) :
    takes e slot = true ↔ (b = true ∨ e.secondary = none) ∧
      (match (generalizing := false) slot with
        | .buffs => True
        | .debuffs target => target ∈ e.targets) := by
  cases slot with
  | buffs =>
    have h : e.snapshotBuffs = .flag b := h
    simp [takes, takesNow, pending, h]
  | debuffs target =>
    have h : e.snapshotDebuffs = .flag b := h
    simp [takes, takesNow, pending, h]

theorem takes_done {e : Event} {slot : Slot} {b : StatusEffects} (h : slot.status e = .done b) :
    takes e slot = false := by
  cases slot with
  | buffs =>
    have h : e.snapshotBuffs = .done b := h
    simp [takes, takesNow, pending, h]
  | debuffs target =>
    have h : e.snapshotDebuffs = .done b := h
    simp [takes, takesNow, pending, h]

open Classical in
/-- When the effects of the slot still have to be decided for an event in the queue. -/
noncomputable def openAt (slot : Slot) (name : String) (spec : StatusEffectSpec) (q : List Event) :
    List ℚ :=
  (q.filter (fun e => decide ((∃ b, slot.status e = .flag b) ∧ Eats slot name spec e))).map
    (decidedAt slot)

theorem openAt_perm {slot : Slot} {name : String} {spec : StatusEffectSpec} {q q' : List Event}
    (h : q.Perm q') : (openAt slot name spec q).Perm (openAt slot name spec q') := by
  classical
  exact (h.filter _).map _

open Classical in
theorem openAt_cons (slot : Slot) (name : String) (spec : StatusEffectSpec) (e : Event)
    (q : List Event) :
    openAt slot name spec (e :: q) =
      (if (∃ b, slot.status e = .flag b) ∧ Eats slot name spec e then [decidedAt slot e] else []) ++
        openAt slot name spec q := by
  unfold openAt
  rw [List.filter_cons]
  by_cases h : (∃ b, slot.status e = .flag b) ∧ Eats slot name spec e
  · rw [if_pos (by simpa using h), if_pos h]
    rfl
  · rw [if_neg (by simpa using h), if_neg h]
    rfl

/-- Each event asks for the effects of the slot once, at the time they are decided. -/
theorem reaches_eaten {slot : Slot} {name : String} {spec : StatusEffectSpec} {s s' : DamageState}
    {tr : List (DamageState × Event)} (h : Reaches s tr s') (ho : s.events.Ok)
    (hend : s'.events.q = []) (hq : ∀ b ∈ s.events.q, QueueOk slot name spec b) :
    (eatenIn slot name spec tr).Perm (openAt slot name spec s.events.q) := by
  classical
  induction h with
  | refl s =>
    rw [hend]
    exact .refl _
  | step s s1 s2 e evs tr h1 h2 h3 ih =>
    obtain ⟨o1, o2, o3, -⟩ := Events.getNext_spec ho h1
    have hee : e ∈ s.events.q := o2.mem_iff.2 (by simp)
    have hqe := hq e hee
    have hq1 := processEvent_queueOk (s := { s with events := evs }) o1 hqe
      (fun b hb => hq b (o2.mem_iff.2 (List.mem_cons_of_mem _ hb))) h2
    obtain ⟨p1, p2, p3⟩ := processEvent_split (s := { s with events := evs }) o1 h2
    have ih := ih p1 hend hq1
    rw [eatenIn_cons]
    refine List.Perm.trans ?_ (openAt_perm o2).symm
    rw [openAt_cons]
    simp only
    cases hsec : e.secondary with
    | none =>
      rw [p2 hsec] at ih
      refine List.Perm.append ?_ ih
      have happ : appliedAt e = e.primary := by simp [appliedAt, hsec]
      have hdec : decidedAt slot e = e.primary := by
        unfold decidedAt
        split_ifs
        · exact happ
        · rfl
      have : EatsNow slot name spec e ↔ (∃ b, slot.status e = .flag b) ∧ Eats slot name spec e := by
        unfold EatsNow Eats
        cases hst : slot.status e with
        | done b => simp [takes_done hst]
        | flag b =>
          rw [takes_iff hst]
          cases slot <;> simp [hsec, and_comm]
      rw [hdec]
      by_cases hc : EatsNow slot name spec e
      · rw [if_pos hc, if_pos (this.1 hc)]
      · rw [if_neg hc, if_neg (fun h => hc (this.2 h))]
    | some sec =>
      obtain ⟨e', q1, q2, q3, q4, q5, q6⟩ := p3 sec hsec hqe.nonempty
        (hqe.regular.targets (by rw [hsec]; simp))
      have q6 := q6 slot
      have ih := ih.trans (openAt_perm q1)
      rw [openAt_cons] at ih
      have heats : Eats slot name spec e' ↔ Eats slot name spec e := by
        unfold Eats
        rw [q4, q5]
      rcases hst : slot.status e with (_ | _) | b
      · simp only [hst] at q6
        have h4 : ¬ EatsNow slot name spec e := by
          unfold EatsNow
          rw [takes_iff hst]
          simp [hsec]
        have h5 : decidedAt slot e' = decidedAt slot e := by
          unfold decidedAt
          rw [hst, q6, if_pos rfl, if_pos rfl]
          simp [appliedAt, hsec, q2, q3]
        rw [if_neg h4, List.nil_append]
        refine ih.trans (List.Perm.append ?_ (.refl _))
        simp only [q6, heats, h5]
        exact .refl _
      · simp only [hst] at q6
        obtain ⟨b, hb⟩ := q6
        have h4 : EatsNow slot name spec e ↔ Eats slot name spec e := by
          unfold EatsNow Eats
          rw [takes_iff hst]
          cases slot <;> simp [and_comm]
        have h5 : decidedAt slot e = e.primary := by
          unfold decidedAt
          rw [hst, if_neg (by simp)]
        have h6 : ¬ ((∃ b, slot.status e' = .flag b) ∧ Eats slot name spec e') := by
          rw [hb]
          simp
        rw [if_neg h6, List.nil_append] at ih
        refine List.Perm.append ?_ ih
        rw [h5]
        by_cases hc : Eats slot name spec e
        · rw [if_pos (h4.2 hc), if_pos ⟨⟨_, rfl⟩, hc⟩]
        · rw [if_neg (fun h => hc (h4.1 h)), if_neg (fun h => hc h.2)]
      · simp only [hst] at q6
        obtain ⟨b', hb⟩ := q6
        have h4 : ¬ EatsNow slot name spec e := by
          unfold EatsNow
          rw [takes_done hst]
          simp
        have h6 : ¬ ((∃ b, slot.status e' = .flag b) ∧ Eats slot name spec e') := by
          rw [hb]
          simp
        rw [if_neg h6, List.nil_append] at ih
        rw [if_neg h4, if_neg (by simp)]
        exact ih

open Classical in
/-- The whole execution, with the effect given exactly once. -/
theorem reaches_once {slot : Slot} {name : String} {spec : StatusEffectSpec}
    (hx : spec.extendOnly = false) (h0u : 0 ≤ spec.numUses) {sg : ℚ}
    {s s' : DamageState} {tr : List (DamageState × Event)} (h : Reaches s tr s') (ho : s.events.Ok)
    (hq : ∀ b ∈ s.events.q, QueueOk slot name spec b) (hwf : WellFormed s.db.se)
    (hp : name ∉ s.db.se.priority) (hng : givenIn slot name tr = [sg])
    (hsorted : tr.Pairwise (fun p p' => p.2.primary ≤ p'.2.primary))
    (ha : entry s.db.se slot name = none) (hend : s'.events.q = []) {g : Event} {q : List Event}
    (hperm : s.events.q.Perm (g :: q)) (hgg : GivesTo slot name g)
    (hgq : ∀ b ∈ q, ¬ GivesTo slot name b) :
    ∃ l1 pg l2, tr = l1 ++ pg :: l2 ∧ pg.2.primary = sg ∧
      (eatenIn slot name spec l2).Subperm (openAt slot name spec q) ∧
      (∀ l p r, l1 ++ [pg] = l ++ p :: r →
        WellFormed (startSe p.1 p.2) ∧ name ∉ (startSe p.1 p.2).priority ∧
        entry (startSe p.1 p.2) slot name = none) ∧
      ∀ l p r, l2 = l ++ p :: r →
        WellFormed (startSe p.1 p.2) ∧ name ∉ (startSe p.1 p.2).priority ∧
        SimUses spec (sg + spec.duration) p.2.primary (entry (startSe p.1 p.2) slot name)
          (eatenIn slot name spec l).length ∧
        ∀ a, entry (startSe p.1 p.2) slot name = some a →
          (p.2.primary : WithTop ℚ) ≤ sg + spec.duration ∧ 0 < a.uses := by
  induction h generalizing g q with
  | refl s => simp [givenIn] at hng
  | step s s1 s2 e evs tr h1 h2 h3 ih =>
    obtain ⟨o1, o2, o3, -⟩ := Events.getNext_spec ho h1
    have hee : e ∈ s.events.q := o2.mem_iff.2 (by simp)
    have hqe := hq e hee
    have hq1 := processEvent_queueOk (s := { s with events := evs }) o1 hqe
      (fun b hb => hq b (o2.mem_iff.2 (List.mem_cons_of_mem _ hb))) h2
    have ho1 := (processEvent_queue (s := { s with events := evs }) o1 h2).1
    obtain ⟨p1, p2, p3⟩ := processEvent_split (s := { s with events := evs }) o1 h2
    simp only at p2 p3
    rw [List.pairwise_cons] at hsorted
    rw [givenIn_cons] at hng
    have hcases := (o2.symm.trans hperm)
    have hstart : WellFormed (startSe { s with events := evs } e) ∧
        name ∉ (startSe { s with events := evs } e).priority ∧
        entry (startSe { s with events := evs } e) slot name = none := by
      refine ⟨expire_wf hwf _, hp, ?_⟩
      unfold startSe
      rw [entry_expire hwf, ha]
      rfl
    by_cases hg : e.secondary.isNone ∧ GivesTo slot name e
    · rw [if_pos hg] at hng
      simp only [List.singleton_append, List.cons.injEq] at hng
      obtain ⟨rfl, hng⟩ := hng
      obtain ⟨c1, c2, c3⟩ := processEvent_given hx h0u (s := { s with events := evs }) hqe hwf hp ha
        (by simpa using hg.1) hg.2 h2
      have heg : e = g := by
        have : e ∈ g :: q := hperm.mem_iff.1 hee
        rcases List.mem_cons.1 this with h | h
        · exact h
        · exact absurd hg.2 (hgq e h)
      subst heg
      refine ⟨[], _, tr, rfl, rfl, ?_, ?_, ?_⟩
      · refine (reaches_eaten h3 ho1 hend hq1).subperm.trans ?_
        rw [p2 (by simpa using hg.1)]
        exact (openAt_perm ((List.perm_cons _).1 hcases)).subperm
      · intro l p r hl
        cases l with
        | nil =>
          simp only [List.nil_append, List.cons.injEq] at hl
          obtain ⟨rfl, -⟩ := hl
          exact hstart
        | cons a l => simp at hl
      · have := reaches_uses h3 ho1 hq1 c1 (by rw [c2]; exact hp) hng (fun p hp => hsorted.1 p hp)
          hsorted.2 c3
        simpa using this
    · rw [if_neg hg] at hng
      obtain ⟨c1, c2, c3⟩ := processEvent_absent (s := { s with events := evs }) hqe hwf hp ha hg h2
      obtain ⟨g', q', r1, r2, r3, r4⟩ : ∃ g' q', s1.events.q.Perm (g' :: q') ∧ GivesTo slot name g' ∧
          (∀ b ∈ q', ¬ GivesTo slot name b) ∧
          (openAt slot name spec q').Subperm (openAt slot name spec q) := by
        have hmem : e ∈ g :: q := hperm.mem_iff.1 hee
        cases hsec : e.secondary with
        | none =>
          rw [hsec] at hg
          have heq : e ∈ q := by
            rcases List.mem_cons.1 hmem with h | h
            · exact absurd ⟨rfl, h ▸ hgg⟩ hg
            · exact h
          obtain ⟨q1, hq1⟩ := perm_of_mem heq
          refine ⟨g, q1, ?_, hgg, fun b hb => hgq b (hq1.mem_iff.2 (List.mem_cons_of_mem _ hb)), ?_⟩
          · rw [p2 hsec]
            refine (List.perm_cons e).1 (hcases.trans ?_)
            exact (hq1.cons g).trans (.swap _ _ _)
          · refine List.Subperm.trans ?_ (openAt_perm hq1.symm).subperm
            rw [openAt_cons]
            exact (List.sublist_append_right _ _).subperm
        | some sec =>
          obtain ⟨e', f1, f2, f3, f4, f5, f6⟩ := p3 sec hsec hqe.nonempty
            (hqe.regular.targets (by rw [hsec]; simp))
          have hgt : GivesTo slot name e' ↔ GivesTo slot name e := by
            unfold GivesTo
            rw [f4, f5]
          rcases List.mem_cons.1 hmem with h | h
          · subst h
            refine ⟨e', q, f1.trans (((List.perm_cons _).1 hcases).cons _), hgt.2 hgg, hgq, .refl _⟩
          · obtain ⟨q1, hq1⟩ := perm_of_mem h
            refine ⟨g, e' :: q1, ?_, hgg, ?_, ?_⟩
            · have : evs.q.Perm (g :: q1) :=
                (List.perm_cons e).1 (hcases.trans ((hq1.cons g).trans (.swap _ _ _)))
              exact f1.trans ((this.cons e').trans (.swap _ _ _))
            · intro b hb
              rcases List.mem_cons.1 hb with rfl | hb
              · rw [hgt]
                exact hgq e h
              · exact hgq b (hq1.mem_iff.2 (List.mem_cons_of_mem _ hb))
            · refine List.Subperm.trans ?_ (openAt_perm hq1.symm).subperm
              rw [openAt_cons, openAt_cons]
              refine List.Subperm.append ?_ (.refl _)
              have f6 := f6 slot
              have heats : Eats slot name spec e' ↔ Eats slot name spec e := by
                unfold Eats
                rw [f4, f5]
              rcases hst : slot.status e with (_ | _) | b
              · simp only [hst] at f6
                have h5 : decidedAt slot e' = decidedAt slot e := by
                  unfold decidedAt
                  rw [hst, f6, if_pos rfl, if_pos rfl]
                  simp [appliedAt, hsec, f2, f3]
                simp only [f6, heats, h5]
                exact .refl _
              · simp only [hst] at f6
                obtain ⟨b, hb⟩ := f6
                rw [if_neg (by rw [hb]; simp)]
                exact (List.nil_sublist _).subperm
              · simp only [hst] at f6
                obtain ⟨b', hb⟩ := f6
                rw [if_neg (by rw [hb]; simp)]
                exact (List.nil_sublist _).subperm
      obtain ⟨l1, pg, l2, i1, i2, i5, i3, i4⟩ := ih ho1 hq1 c1 (by rw [c2]; exact hp) hng hsorted.2 c3
        hend r1 r2 r3
      refine ⟨(_, e) :: l1, pg, l2, by rw [i1]; rfl, i2, i5.trans r4, ?_, i4⟩
      intro l p r hl
      cases l with
      | nil =>
        simp only [List.cons_append, List.nil_append, List.cons.injEq] at hl
        obtain ⟨rfl, -⟩ := hl
        exact hstart
      | cons a l =>
        simp only [List.cons_append, List.cons.injEq] at hl
        exact i3 l p r hl.2

/-- The effects of a hit are those found in some iteration, at the time they are decided. -/
theorem hit_decided {slot : Slot} {tr : List (DamageState × Event)} {hit : Hit} {x : DamageInstance}
    (hreg : Regular hit.event) (hnd : hit.event.targets.Nodup) (htm : hit.target ∈ hit.event.targets)
    (hflag : ∃ b, slot.status hit.event = .flag b) (hc : slot.Concerns hit.target)
    (h : HitSpec tr hit x) :
    ∃ p ∈ tr, p.2.primary = decidedAt slot hit.event ∧ p.2.skill = hit.event.skill ∧
      takes p.2 slot = true ∧
      ∃ c se, slot.compile (startSe p.1 p.2) p.2.primary p.2.skill.toSkillCore =
        .ok ((slot.seen x, c), se) := by
  obtain ⟨-, -, hb, hd⟩ := h
  have htaken : ∃ At : DamageState → Event → StatusEffects → Prop,
      hit.TakenAt tr (slot.status hit.event) At (slot.seen x) ∧
      ∀ s e b, At s e b → ∃ c se,
        slot.compile (startSe s e) e.primary e.skill.toSkillCore = .ok ((b, c), se) := by
    cases slot with
    | buffs => exact ⟨BuffsAt, hb, fun _ _ _ h => h⟩
    | debuffs target =>
      have : target = hit.target := hc
      subst this
      exact ⟨_, hd hnd, fun _ _ _ h => h⟩
  have hmem : match (generalizing := false) slot with
      | .buffs => True
      | .debuffs target => target ∈ hit.event.targets := by
    cases slot with
    | buffs => trivial
    | debuffs target =>
      have : target = hit.target := hc
      subst this
      exact htm
  obtain ⟨At, h6, h7⟩ := htaken
  obtain ⟨b, hb⟩ := hflag
  unfold Hit.TakenAt at h6
  rw [hb] at h6
  cases b with
  | true =>
    obtain ⟨s1, h8, h9⟩ := h6
    refine ⟨(s1, hit.event), h8, ?_, rfl, (takes_iff hb).2 ⟨.inl rfl, hmem⟩, h7 _ _ _ h9⟩
    unfold decidedAt
    rw [hb, if_neg (by simp)]
  | false =>
    have hdec : decidedAt slot hit.event = appliedAt hit.event := by
      unfold decidedAt
      rw [hb, if_pos rfl]
    simp only at h6
    split_ifs at h6 with hsec
    · obtain ⟨s1, h8, h9⟩ := h6
      refine ⟨(s1, hit.event), h8, ?_, rfl, (takes_iff hb).2 ⟨.inr hsec, hmem⟩, h7 _ _ _ h9⟩
      rw [hdec]
      simp [appliedAt, hsec]
    · obtain ⟨s1, e1, h8, ⟨g1, g2, g3, g4, g5, g6, g7⟩, h9⟩ := h6
      refine ⟨(s1, e1), h8, ?_, g3, ?_, h7 _ _ _ h9⟩
      · rw [hdec]
        simp only
        rw [g1]
        unfold Hit.time
        rw [if_neg]
        have := hreg.targets hsec
        omega
      · cases slot with
        | buffs => exact (takes_iff (slot := .buffs) (g6 hb)).2 ⟨.inr g2, trivial⟩
        | debuffs target =>
          refine (takes_iff (slot := .debuffs target) (g7 hb)).2 ⟨.inr g2, ?_⟩
          have : target = hit.target := hc
          simp only
          rw [g5, this]
          simp

theorem mem_hitsOf_target {q : List Event} {h : Hit} (hm : h ∈ hitsOf q) : h.target ∈ h.event.targets := by
  unfold hitsOf at hm
  obtain ⟨e, he, h1⟩ := List.mem_flatMap.1 hm
  obtain ⟨ti, h2, rfl⟩ := List.mem_map.1 h1
  exact (List.mem_zipIdx' h2).2 ▸ List.getElem_mem _

end Ama
