import Verif.Spec.DamageConditions
import Verif.Lemmas.DamageRuns

/-!
# Lemmas: conditions, combos and gauges in the result of the damage builder
-/

namespace Ama

open Spec DamageBuilder

/-! ## Conditions added by the parts of an iteration -/

theorem addToCondition_conds (m : SkillModifier) (c : String) :
    (m.addToCondition c).withCondition = m.withCondition ∪ textConds c := by
  unfold SkillModifier.addToCondition textConds
  split_ifs <;> simp

theorem targetModifier_conds (n i : ℕ) (m : SkillModifier) :
    (targetModifier n i m).withCondition = m.withCondition ∪
      (if n > 1 then {"Target " ++ toString (i + 1)} else ∅) := by
  unfold targetModifier
  split_ifs
  · rw [addToCondition_conds]
    unfold textConds
    rw [if_neg, canonicalize_target]
    rw [String.toList_append]
    simp
  · simp

theorem addPositional_conds {skill : Skill} {m m' : SkillModifier}
    (h : Utils.addPositional skill m = .ok m') :
    ∃ pos, PositionalAdds skill m pos ∧ m'.withCondition = m.withCondition ∪ pos := by
  unfold Utils.addPositional at h
  split at h
  · rename_i c hc
    cases h
    refine ⟨_, .inl ⟨c, hc, rfl⟩, ?_⟩
    unfold SkillModifier.addConditions
    split_ifs <;> simp
  · rename_i hc
    cases h
    exact ⟨∅, .inr ⟨hc, rfl⟩, by simp⟩
  · cases h

theorem gaugesIf_conds {c : Bool} {db db' : DamageBuilder} {t : ℚ} {skill : Skill}
    {m m' : SkillModifier} (h : gaugesIf c db t skill m = .ok (m', db')) :
    ∃ g, m'.withCondition = m.withCondition ∪ textConds g ∧
      (if c then db.res.compile t skill.name = .ok (g, db'.res) else g = "" ∧ db'.res = db.res) ∧
      db'.combo = db.combo ∧ db'.se = db.se := by
  unfold gaugesIf at h
  cases c with
  | true =>
    simp only [if_true] at h ⊢
    unfold addGauges at h
    obtain ⟨⟨g, r⟩, h1, h⟩ := Py.bind_eq_ok.1 h
    cases h
    exact ⟨g, addToCondition_conds _ _, h1, rfl, rfl⟩
  | false =>
    cases h
    exact ⟨"", by simp [textConds], by simp, rfl, rfl⟩

theorem comboIf_conds {c : Bool} {db db' : DamageBuilder} {t : ℚ} {skill : Skill}
    {m m' : SkillModifier} (h : comboIf c db t skill m = .ok (m', db')) :
    ∃ out pos, m'.withCondition = m.withCondition ∪ textConds out ∪ pos ∧
      (if c then db.combo.compileAndUpdate t skill.toSkillCore m = .ok (out, db'.combo) ∧
          PositionalAdds skill (m.addToCondition out) pos
        else out = "" ∧ pos = ∅ ∧ db'.combo = db.combo) ∧
      db'.res = db.res ∧ db'.se = db.se := by
  unfold comboIf at h
  cases c with
  | true =>
    simp only [if_true] at h ⊢
    unfold addCombo at h
    obtain ⟨⟨out, r⟩, h1, h⟩ := Py.bind_eq_ok.1 h
    obtain ⟨m1, h2, h⟩ := Py.bind_eq_ok.1 h
    cases h
    obtain ⟨pos, h3, h4⟩ := addPositional_conds h2
    exact ⟨out, pos, by rw [h4, addToCondition_conds], ⟨h1, h3⟩, rfl, rfl⟩
  | false =>
    cases h
    exact ⟨"", ∅, by simp [textConds], by simp, rfl, rfl⟩

theorem changeIf_frame {c : Bool} {db db' : DamageBuilder} {t : ℚ} {skill : Skill}
    {m : SkillModifier} (h : changeIf c db t skill m = .ok db') :
    (if c then db.res.addResource t skill.toSkillCore m = .ok db'.res else db'.res = db.res) ∧
      db'.combo = db.combo ∧ db'.se = db.se := by
  unfold changeIf at h
  cases c with
  | true =>
    simp only [if_true] at h ⊢
    unfold changeGauges at h
    obtain ⟨r, h1, h⟩ := Py.bind_eq_ok.1 h
    cases h
    exact ⟨h1, rfl, rfl⟩
  | false =>
    cases h
    exact ⟨by simp, rfl, rfl⟩

theorem takeBuffs_conds {db db' : DamageBuilder} {t : ℚ} {skill : Skill} {m m' : SkillModifier}
    {b : StatusEffects} (h : db.takeBuffs t skill m = .ok (b, m', db')) :
    ∃ c, m' = m.addToCondition c ∧ db.se.compileBuffs t skill.toSkillCore = .ok ((b, c), db'.se) ∧
      db'.res = db.res ∧ db'.combo = db.combo := by
  unfold takeBuffs at h
  obtain ⟨⟨⟨b, c⟩, se⟩, h1, h⟩ := Py.bind_eq_ok.1 h
  cases h
  exact ⟨c, rfl, h1, rfl, rfl⟩

theorem takeDebuffs_conds {db db' : DamageBuilder} {t : ℚ} {skill : Skill} {m m' : SkillModifier}
    {b : StatusEffects} {target : String} (h : db.takeDebuffs t skill m target = .ok (b, m', db')) :
    ∃ c, m' = m.addToCondition c ∧
      db.se.compileDebuffs t skill.toSkillCore target = .ok ((b, c), db'.se) ∧
      db'.res = db.res ∧ db'.combo = db.combo := by
  unfold takeDebuffs at h
  obtain ⟨⟨⟨b, c⟩, se⟩, h1, h⟩ := Py.bind_eq_ok.1 h
  cases h
  exact ⟨c, rfl, h1, rfl, rfl⟩

theorem compileDebuffs_same' {a b : StatusEffectTracker} {t : ℚ} {skill : SkillCore}
    {target : String} (h : SameDebuffs a b target) {d : StatusEffects} {c : String}
    {se : StatusEffectTracker} (hc : a.compileDebuffs t skill target = .ok ((d, c), se)) :
    ∃ se, b.compileDebuffs t skill target = .ok ((d, c), se) := by
  unfold StatusEffectTracker.compileDebuffs at hc ⊢
  rw [h.1, h.2] at hc
  obtain ⟨⟨b1, c1, es⟩, h1, h2⟩ := Py.bind_eq_ok.1 hc
  cases h2
  rw [h1]
  exact ⟨_, rfl⟩

theorem finalBuffs_conds {st : SnapStatus} {db db' : DamageBuilder} {t : ℚ} {skill : Skill}
    {m m' : SkillModifier} {b : StatusEffects}
    (h : finalBuffs st db t skill m = .ok (b, m', db')) :
    ∃ c, m'.withCondition = m.withCondition ∪ textConds c ∧ db'.res = db.res ∧ db'.combo = db.combo ∧
      match (generalizing := false) st with
      | .done b' => c = "" ∧ b = b'
      | .flag _ => ∃ se, db.se.compileBuffs t skill.toSkillCore = .ok ((b, c), se) := by
  unfold finalBuffs at h
  cases st with
  | done b' =>
    cases h
    exact ⟨"", by simp [textConds], rfl, rfl, rfl, rfl⟩
  | flag f =>
    obtain ⟨c, rfl, h1, h2, h3⟩ := takeBuffs_conds h
    exact ⟨c, addToCondition_conds _ _, h2, h3, _, h1⟩

theorem snapBuffs_conds {st st' : SnapStatus} {db db' : DamageBuilder} {t : ℚ} {skill : Skill}
    {m m' : SkillModifier} (h : snapBuffs st db t skill m = .ok (st', m', db')) :
    ∃ c, m'.withCondition = m.withCondition ∪ textConds c ∧ db'.res = db.res ∧ db'.combo = db.combo ∧
      match (generalizing := false) st with
      | .done b => c = "" ∧ st' = .done b
      | .flag true => ∃ b se, st' = .done b ∧
          db.se.compileBuffs t skill.toSkillCore = .ok ((b, c), se)
      | .flag false => c = "" ∧ st' = .flag false := by
  unfold snapBuffs at h
  rcases st with (_ | _) | b'
  · cases h
    exact ⟨"", by simp [textConds], rfl, rfl, rfl, rfl⟩
  · obtain ⟨⟨b, m1, db1⟩, h1, h⟩ := Py.bind_eq_ok.1 h
    cases h
    obtain ⟨c, rfl, h2, h3, h4⟩ := takeBuffs_conds h1
    exact ⟨c, addToCondition_conds _ _, h3, h4, b, _, rfl, h2⟩
  · cases h
    exact ⟨"", by simp [textConds], rfl, rfl, rfl, rfl⟩

/-! ## The loops over targets -/

/-- `Applied`, with the conditions: `m` is the modifier before the loop. -/
def AppliedConds (e : Event) (buffs : StatusEffects) (se0 : StatusEffectTracker) (N : Prop)
    (m : SkillModifier) (ti : String × ℕ) (x : DamageInstance) : Prop :=
  Applied e buffs se0 N ti x ∧
  ∃ c, x.modifier.withCondition = m.withCondition ∪
      (if e.targets.length > 1 then {"Target " ++ toString (ti.2 + 1)} else ∅) ∪ textConds c ∧
    match e.snapshotDebuffs with
    | .done d => c = "" ∧ x.debuffs = d
    | .flag _ => N → ∃ se, se0.compileDebuffs e.primary e.skill.toSkillCore ti.1 =
        .ok ((x.debuffs, c), se)

theorem applyTarget_conds {e : Event} {buffs : StatusEffects} {se0 : StatusEffectTracker} {N : Prop}
    {s s' : DamageState} {m m' : SkillModifier} {ti : String × ℕ}
    (hm : Widens e.modifier m) (hs : N → SameDebuffs s.db.se se0 ti.1)
    (h : applyTarget e buffs (s, m) ti = .ok (s', m')) :
    Widens e.modifier m' ∧ s'.events = s.events ∧
    (∀ target, target ≠ ti.1 → SameDebuffs s'.db.se s.db.se target) ∧
    (e.targets.length > 1 → m' = m) ∧ s'.db.res = s.db.res ∧ s'.db.combo = s.db.combo ∧
    ∃ x, AppliedConds e buffs se0 N m ti x ∧ s'.q.Perm (s.q ++ [x].filter deals) := by
  unfold applyTarget at h
  simp only at h
  obtain ⟨⟨d, mu, db⟩, h1, h⟩ := Py.bind_eq_ok.1 h
  obtain ⟨q, h2, h⟩ := Py.bind_eq_ok.1 h
  simp only [Py.pure_eq, Except.ok.injEq, Prod.mk.injEq] at h
  obtain ⟨rfl, rfl⟩ := h
  obtain ⟨hsp, hq⟩ := pushInstance_spec h2
  have key : Widens e.modifier mu ∧
      (e.targets.length > 1 → "Target " ++ toString (ti.2 + 1) ∈ mu.withCondition) ∧
      (∀ target, target ≠ ti.1 → SameDebuffs db.se s.db.se target) ∧
      db.res = s.db.res ∧ db.combo = s.db.combo ∧
      (match e.snapshotDebuffs with
      | .done d' => d = d'
      | .flag _ => N → ∃ c se, se0.compileDebuffs e.primary e.skill.toSkillCore ti.1 =
          .ok ((d, c), se)) ∧
      ∃ c, mu.withCondition = m.withCondition ∪
          (if e.targets.length > 1 then {"Target " ++ toString (ti.2 + 1)} else ∅) ∪ textConds c ∧
        match e.snapshotDebuffs with
        | .done d' => c = "" ∧ d = d'
        | .flag _ => N → ∃ se, se0.compileDebuffs e.primary e.skill.toSkillCore ti.1 =
            .ok ((d, c), se) := by
    cases hd : e.snapshotDebuffs with
    | done d' =>
      rw [hd] at h1
      cases h1
      exact ⟨hm.targetModifier _ _, fun hn => mem_targetModifier hn _, fun _ _ => ⟨rfl, rfl⟩, rfl, rfl,
        rfl, "", by rw [targetModifier_conds]; simp [textConds], rfl, rfl⟩
    | flag b =>
      rw [hd] at h1
      unfold finalDebuffs at h1
      obtain ⟨h3, h4, h5⟩ := takeDebuffs_spec (Widens.refl _) h1
      obtain ⟨c, hc1, hc2, hc3, hc4⟩ := takeDebuffs_conds h1
      refine ⟨(hm.targetModifier _ _).trans h3, fun hn => h3.2 (mem_targetModifier hn _), h4, hc3, hc4,
        fun hN => compileDebuffs_same (hs hN) h5, c, ?_, fun hN => compileDebuffs_same' (hs hN) hc2⟩
      rw [hc1, addToCondition_conds, targetModifier_conds]
  obtain ⟨k1, k2, k3, k4, k5, k6, k7⟩ := key
  refine ⟨?_, rfl, k3, fun hn => if_pos hn, k4, k5, _,
    ⟨⟨rfl, rfl, rfl, rfl, k1, k2, hsp, rfl, k6⟩, k7⟩, hq⟩
  split_ifs
  · exact hm
  · exact k1

theorem applyTargets_conds {e : Event} {buffs : StatusEffects} {se0 : StatusEffectTracker} {N : Prop}
    {l : List (String × ℕ)} {s s' : DamageState} {m m' : SkillModifier}
    (hm : Widens e.modifier m) (hN : N → (l.map Prod.fst).Nodup)
    (hl : e.targets.length > 1 ∨ l.length ≤ 1)
    (hs : N → ∀ target ∈ l.map Prod.fst, SameDebuffs s.db.se se0 target)
    (h : l.foldlM (applyTarget e buffs) (s, m) = .ok (s', m')) :
    s'.events = s.events ∧ s'.db.res = s.db.res ∧ s'.db.combo = s.db.combo ∧
    ∃ xs, List.Forall₂ (AppliedConds e buffs se0 N m) l xs ∧ s'.q.Perm (s.q ++ xs.filter deals) := by
  induction l generalizing s m with
  | nil =>
    cases h
    exact ⟨rfl, rfl, rfl, [], .nil, by simp⟩
  | cons ti l ih =>
    rw [Py.foldlM_cons] at h
    obtain ⟨⟨s1, m1⟩, h1, h2⟩ := Py.bind_eq_ok.1 h
    obtain ⟨a1, a2, a3, a6, a7, a8, x, a4, a5⟩ :=
      applyTarget_conds hm (fun n => hs n _ (by simp)) h1
    obtain ⟨b1, b4, b5, xs, b2, b3⟩ := ih a1 (fun n => (List.nodup_cons.1 (hN n)).2)
      (hl.imp_right fun h => by simp at h; simp [h]) (by
      intro n target ht
      have hne : target ≠ ti.1 := by
        rintro rfl
        exact (List.nodup_cons.1 (hN n)).1 ht
      have h3 := a3 target hne
      have h4 := hs n target (List.mem_cons_of_mem _ ht)
      exact ⟨h3.1.trans h4.1, h3.2.trans h4.2⟩) h2
    refine ⟨b1.trans a2, b4.trans a7, b5.trans a8, x :: xs, .cons a4 ?_, ?_⟩
    · rcases hl with hl | hl
      · rw [a6 hl] at b2
        exact b2
      · have : l = [] := by
          simp only [List.length_cons] at hl
          exact List.length_eq_zero_iff.1 (by omega)
        subst this
        cases b2
        exact .nil
    · refine b3.trans ?_
      have : (x :: xs).filter deals = [x].filter deals ++ xs.filter deals := by
        rw [← List.filter_append]
        rfl
      rw [this, ← List.append_assoc]
      exact a5.append_right _

/-- `Snapped`, with the conditions: `m` is the modifier before the loop. -/
def SnappedConds (e : Event) (secondary : ℚ) (prio : ℤ) (buffs : SnapStatus) (jp cp : Bool)
    (se0 : StatusEffectTracker) (N : Prop) (m : SkillModifier) (ti : String × ℕ) (e' : Event) : Prop :=
  Snapped e secondary prio buffs se0 N ti e' ∧
  e'.jobResourcesAdded = true ∧ e'.jobConditionalProcessed = jp ∧ e'.comboConditionalProcessed = cp ∧
  ∃ c, e'.modifier.withCondition = m.withCondition ∪
      (if e.targets.length > 1 then {"Target " ++ toString (ti.2 + 1)} else ∅) ∪ textConds c ∧
    match e.snapshotDebuffs with
    | .done d => c = "" ∧ e'.snapshotDebuffs = .done d
    | .flag true => ∃ d, e'.snapshotDebuffs = .done d ∧
        (N → ∃ se, se0.compileDebuffs e.primary e.skill.toSkillCore ti.1 = .ok ((d, c), se))
    | .flag false => c = "" ∧ e'.snapshotDebuffs = .flag false

theorem snapshotTarget_conds {e : Event} {secondary : ℚ} {prio : ℤ} {buffs : SnapStatus}
    {jp cp : Bool} {se0 : StatusEffectTracker} {N : Prop}
    {s s' : DamageState} {m m' : SkillModifier} {ti : String × ℕ} (ho : s.events.Ok)
    (hm : Widens e.modifier m) (hs : N → SameDebuffs s.db.se se0 ti.1)
    (h : snapshotTarget e secondary prio buffs jp cp (s, m) ti = .ok (s', m')) :
    Widens e.modifier m' ∧ s'.events.Ok ∧ s'.q = s.q ∧
    (∀ target, target ≠ ti.1 → SameDebuffs s'.db.se s.db.se target) ∧
    (e.targets.length > 1 → m' = m) ∧ s'.db.res = s.db.res ∧ s'.db.combo = s.db.combo ∧
    ∃ e', SnappedConds e secondary prio buffs jp cp se0 N m ti e' ∧
      s'.events.q.Perm (e' :: s.events.q) := by
  unfold snapshotTarget at h
  simp only at h
  obtain ⟨⟨d, mu, db⟩, h1, h⟩ := Py.bind_eq_ok.1 h
  obtain ⟨evs, h2, h⟩ := Py.bind_eq_ok.1 h
  simp only [Py.pure_eq, Except.ok.injEq, Prod.mk.injEq] at h
  obtain ⟨rfl, rfl⟩ := h
  obtain ⟨evs', h3, h4, h5, -⟩ := Events.add_spec s.events ho _
  rw [h2] at h3
  cases h3
  have key : Widens e.modifier mu ∧
      (e.targets.length > 1 → "Target " ++ toString (ti.2 + 1) ∈ mu.withCondition) ∧
      (∀ target, target ≠ ti.1 → SameDebuffs db.se s.db.se target) ∧
      db.res = s.db.res ∧ db.combo = s.db.combo ∧
      (match e.snapshotDebuffs with
      | .done d' => d = .done d'
      | .flag true => ∃ d', d = .done d' ∧
          (N → ∃ c se, se0.compileDebuffs e.primary e.skill.toSkillCore ti.1 = .ok ((d', c), se))
      | .flag false => d = .flag false) ∧
      ∃ c, mu.withCondition = m.withCondition ∪
          (if e.targets.length > 1 then {"Target " ++ toString (ti.2 + 1)} else ∅) ∪ textConds c ∧
        match e.snapshotDebuffs with
        | .done d' => c = "" ∧ d = .done d'
        | .flag true => ∃ d', d = .done d' ∧
            (N → ∃ se, se0.compileDebuffs e.primary e.skill.toSkillCore ti.1 = .ok ((d', c), se))
        | .flag false => c = "" ∧ d = .flag false := by
    cases hd : e.snapshotDebuffs with
    | done d' =>
      rw [hd] at h1
      cases h1
      exact ⟨hm.targetModifier _ _, fun hn => mem_targetModifier hn _, fun _ _ => ⟨rfl, rfl⟩, rfl, rfl,
        rfl, "", by rw [targetModifier_conds]; simp [textConds], rfl, rfl⟩
    | flag b =>
      rw [hd] at h1
      cases b with
      | false =>
        cases h1
        exact ⟨hm.targetModifier _ _, fun hn => mem_targetModifier hn _, fun _ _ => ⟨rfl, rfl⟩, rfl,
          rfl, rfl, "", by rw [targetModifier_conds]; simp [textConds], rfl, rfl⟩
      | true =>
        obtain ⟨⟨d1, mu1, db1⟩, h6, h7⟩ := Py.bind_eq_ok.1 h1
        cases h7
        obtain ⟨h3, h4, h5⟩ := takeDebuffs_spec (Widens.refl _) h6
        obtain ⟨c, hc1, hc2, hc3, hc4⟩ := takeDebuffs_conds h6
        refine ⟨(hm.targetModifier _ _).trans h3, fun hn => h3.2 (mem_targetModifier hn _), h4, hc3,
          hc4, ⟨_, rfl, fun hN => compileDebuffs_same (hs hN) h5⟩, c, ?_, _, rfl,
          fun hN => compileDebuffs_same' (hs hN) hc2⟩
        rw [hc1, addToCondition_conds, targetModifier_conds]
  obtain ⟨k1, k2, k3, k4, k5, k6, k7⟩ := key
  refine ⟨?_, h4, rfl, k3, fun hn => if_pos hn, k4, k5, _, ⟨?_, ?_, ?_, ?_, ?_⟩, h5⟩
  · split_ifs
    · exact hm
    · exact k1
  · refine ⟨rfl, rfl, ?_, rfl, ?_, rfl, k1, k2, ?_, ?_⟩
    · simp [Events.mkEvent]
    · simp [Events.mkEvent, NewEvent.idWith]
    · simp [Events.mkEvent]
    · simp only [Events.mkEvent]
      exact k6
  · simp [Events.mkEvent]
  · simp [Events.mkEvent]
  · simp [Events.mkEvent]
  · obtain ⟨c, hc1, hc2⟩ := k7
    exact ⟨c, by simpa [Events.mkEvent] using hc1, by simpa [Events.mkEvent] using hc2⟩

theorem snapshotTargets_conds {e : Event} {secondary : ℚ} {prio : ℤ} {buffs : SnapStatus}
    {jp cp : Bool} {se0 : StatusEffectTracker} {N : Prop}
    {l : List (String × ℕ)} {s s' : DamageState} {m m' : SkillModifier} (ho : s.events.Ok)
    (hm : Widens e.modifier m) (hN : N → (l.map Prod.fst).Nodup)
    (hl : e.targets.length > 1 ∨ l.length ≤ 1)
    (hs : N → ∀ target ∈ l.map Prod.fst, SameDebuffs s.db.se se0 target)
    (h : l.foldlM (snapshotTarget e secondary prio buffs jp cp) (s, m) = .ok (s', m')) :
    s'.events.Ok ∧ s'.q = s.q ∧ s'.db.res = s.db.res ∧ s'.db.combo = s.db.combo ∧
    ∃ es, List.Forall₂ (SnappedConds e secondary prio buffs jp cp se0 N m) l es ∧
      s'.events.q.Perm (s.events.q ++ es) := by
  induction l generalizing s m with
  | nil =>
    cases h
    exact ⟨ho, rfl, rfl, rfl, [], .nil, by simp⟩
  | cons ti l ih =>
    rw [Py.foldlM_cons] at h
    obtain ⟨⟨s1, m1⟩, h1, h2⟩ := Py.bind_eq_ok.1 h
    obtain ⟨a1, a2, a3, a4, a7, a8, a9, x, a5, a6⟩ :=
      snapshotTarget_conds ho hm (fun n => hs n _ (by simp)) h1
    obtain ⟨b1, b2, b5, b6, xs, b3, b4⟩ := ih a2 a1 (fun n => (List.nodup_cons.1 (hN n)).2)
      (hl.imp_right fun h => by simp at h; simp [h]) (by
      intro n target ht
      have hne : target ≠ ti.1 := by
        rintro rfl
        exact (List.nodup_cons.1 (hN n)).1 ht
      have h3 := a4 target hne
      have h4 := hs n target (List.mem_cons_of_mem _ ht)
      exact ⟨h3.1.trans h4.1, h3.2.trans h4.2⟩) h2
    refine ⟨b1, b2.trans a3, b5.trans a8, b6.trans a9, x :: xs, .cons a5 ?_, ?_⟩
    · rcases hl with hl | hl
      · rw [a7 hl] at b3
        exact b3
      · have : l = [] := by
          simp only [List.length_cons] at hl
          exact List.length_eq_zero_iff.1 (by omega)
        subst this
        cases b3
        exact .nil
    · refine b4.trans ((a6.append_right _).trans ?_)
      exact List.perm_middle.symm

/-! ## One iteration -/

/-- The event reads the gauges when it is processed. -/
def readsGauges (e : Event) : Bool :=
  !e.jobConditionalProcessed && (e.secondary.isNone || e.skill.jobResourcesSnapshot)

/-- The modifier with which the combo is checked. -/
def comboModifier (s : DamageState) (e : Event) : Py SkillModifier :=
  match e.secondary with
  | none => do
    let (m, _) ← gaugesIf (readsGauges e) s.db e.primary e.skill e.modifier
    return m
  | some _ => do
    let (_, m, db) ← snapBuffs e.snapshotBuffs { s.db with se := startSe s e } e.primary e.skill e.modifier
    let (m, _) ← gaugesIf (readsGauges e) db e.primary e.skill m
    return m

/-- The modifier with which the gauges are changed. -/
def changeModifier (s : DamageState) (e : Event) : Py SkillModifier :=
  match e.secondary with
  | none => comboModifier s e
  | some _ => do
    let m ← comboModifier s e
    let (m, _) ← comboIf (!e.comboConditionalProcessed) s.db e.primary e.skill m
    return m

/-- What an iteration does with gauges and combos. -/
structure Step (s : DamageState) (e : Event) (s' : DamageState) (m mg : SkillModifier) (g out : String)
    (pos : Conds) : Prop where
  modifier : comboModifier s e = .ok m
  change : changeModifier s e = .ok mg
  widens : Widens e.modifier m
  widensChange : Widens e.modifier mg
  gauge : ∃ r, (if readsGauges e then s.db.res.compile e.primary e.skill.name = .ok (g, r)
      else g = "" ∧ r = s.db.res) ∧
    (if e.jobResourcesAdded then s'.db.res = r
      else r.addResource e.primary e.skill.toSkillCore mg = .ok s'.db.res)
  combo : if e.comboConditionalProcessed then out = "" ∧ pos = ∅ ∧ s'.db.combo = s.db.combo
    else s.db.combo.compileAndUpdate e.primary e.skill.toSkillCore m = .ok (out, s'.db.combo) ∧
      PositionalAdds e.skill (m.addToCondition out) pos

theorem zipIdx_small (l : List String) : l.length > 1 ∨ l.zipIdx.length ≤ 1 := by
  rw [List.length_zipIdx]
  omega

theorem apply_step {s s' : DamageState} {e : Event} (hsec : e.secondary = none)
    (h : processEvent s e = .ok s') :
    s'.events = s.events ∧ ∃ m mg g out pos buffs cb m4 xs, Step s e s' m mg g out pos ∧
      m.withCondition = e.modifier.withCondition ∪ textConds g ∧
      m4.withCondition = m.withCondition ∪ textConds out ∪ pos ∪ textConds cb ∧
      (match e.snapshotBuffs with
        | .done b => cb = "" ∧ buffs = b
        | .flag _ => ∃ se, (startSe s e).compileBuffs e.primary e.skill.toSkillCore =
            .ok ((buffs, cb), se)) ∧
      List.Forall₂ (AppliedConds e buffs (startSe s e) e.targets.Nodup m4) e.targets.zipIdx xs ∧
      s'.q.Perm (s.q ++ xs.filter deals) := by
  unfold processEvent at h
  simp only at h
  rw [hsec] at h
  unfold applyEvent at h
  simp only at h
  obtain ⟨⟨m1, db1⟩, h1, h⟩ := Py.bind_eq_ok.1 h
  obtain ⟨db2, h2, h⟩ := Py.bind_eq_ok.1 h
  obtain ⟨⟨m3, db3⟩, h3, h⟩ := Py.bind_eq_ok.1 h
  obtain ⟨⟨b, m4, db4⟩, h4, h⟩ := Py.bind_eq_ok.1 h
  obtain ⟨⟨s5, m5⟩, h5, h⟩ := Py.bind_eq_ok.1 h
  obtain ⟨se, h6, h⟩ := Py.bind_eq_ok.1 h
  cases h
  obtain ⟨w1, -⟩ := gaugesIf_spec (Widens.refl _) h1
  obtain ⟨w3, -⟩ := comboIf_spec w1 h3
  obtain ⟨w4, e4, -⟩ := finalBuffs_spec w3 h4
  obtain ⟨g, g1, g2, g3, g4⟩ := gaugesIf_conds h1
  obtain ⟨c1, c2, c3⟩ := changeIf_frame h2
  obtain ⟨out, pos, d1, d2, d3, d4⟩ := comboIf_conds h3
  obtain ⟨cb, f1, f2, f3, f4⟩ := finalBuffs_conds h4
  have eq3 : db3.se = startSe s e := d4.trans (c3.trans g4)
  rw [eq3] at e4 f4
  obtain ⟨a1, a2, a3, xs, a4, a5⟩ := applyTargets_conds (se0 := startSe s e) (N := e.targets.Nodup) w4
    (by rw [map_fst_zipIdx]; exact id) (zipIdx_small _) (fun _ target _ => e4 target) h5
  have hreads : readsGauges e = !e.jobConditionalProcessed := by simp [readsGauges, hsec]
  have hmod : comboModifier s e = .ok m1 := by
    unfold comboModifier
    rw [hsec]
    simp only
    unfold gaugesIf at h1 ⊢
    rw [hreads]
    split_ifs at h1 ⊢
    · unfold addGauges at h1 ⊢
      simp only at h1
      obtain ⟨⟨c, r⟩, h7, h8⟩ := Py.bind_eq_ok.1 h1
      cases h8
      rw [h7]
      rfl
    · cases h1
      rfl
  refine ⟨a1, m1, m1, g, out, pos, b, cb, m4, xs, ?_, g1, ?_, f4, a4, a5⟩
  · refine ⟨hmod, ?_, w1, w1, ⟨db1.res, ?_, ?_⟩, ?_⟩
    · unfold changeModifier
      rw [hsec]
      exact hmod
    · rw [hreads]
      split_ifs at g2 ⊢ <;> exact g2
    · simp only
      rw [a2]
      simp only
      rw [f2, d3]
      cases hr : e.jobResourcesAdded <;> simpa [hr] using c1
    · simp only
      rw [a3]
      simp only
      rw [f3]
      rw [c2, g3] at d2
      cases hc : e.comboConditionalProcessed <;> simpa [hc] using d2
  · rw [f1, d1]

theorem snap_step {s s' : DamageState} {e : Event} {secondary : ℚ} (ho : s.events.Ok)
    (hsec : e.secondary = some secondary) (h : processEvent s e = .ok s') :
    s'.events.Ok ∧ s'.q = s.q ∧ ∃ m mg g out pos buffs cb es prio, Step s e s' m mg g out pos ∧
      m.withCondition = e.modifier.withCondition ∪ textConds cb ∪ textConds g ∧
      mg.withCondition = m.withCondition ∪ textConds out ∪ pos ∧
      (match e.snapshotBuffs with
        | .done b => cb = "" ∧ buffs = .done b
        | .flag true => ∃ b se, buffs = .done b ∧
          (startSe s e).compileBuffs e.primary e.skill.toSkillCore = .ok ((b, cb), se)
        | .flag false => cb = "" ∧ buffs = .flag false) ∧
      List.Forall₂ (SnappedConds e secondary prio buffs
        (!e.jobConditionalProcessed && e.skill.jobResourcesSnapshot) (!e.comboConditionalProcessed)
        (startSe s e) e.targets.Nodup mg) e.targets.zipIdx es ∧
      s'.events.q.Perm (s.events.q ++ es) := by
  unfold processEvent at h
  simp only at h
  rw [hsec] at h
  unfold snapshotEvent at h
  simp only at h
  obtain ⟨⟨b, m1, db1⟩, h1, h⟩ := Py.bind_eq_ok.1 h
  obtain ⟨⟨m2, db2⟩, h2, h⟩ := Py.bind_eq_ok.1 h
  obtain ⟨⟨m3, db3⟩, h3, h⟩ := Py.bind_eq_ok.1 h
  obtain ⟨db4, h4, h⟩ := Py.bind_eq_ok.1 h
  obtain ⟨⟨s5, m5⟩, h5, h⟩ := Py.bind_eq_ok.1 h
  cases h
  obtain ⟨w1, e1, -⟩ := snapBuffs_spec (Widens.refl _) h1
  obtain ⟨w2, -⟩ := gaugesIf_spec w1 h2
  obtain ⟨w3, -⟩ := comboIf_spec w2 h3
  obtain ⟨cb, f1, f2, f3, f4⟩ := snapBuffs_conds h1
  obtain ⟨g, g1, g2, g3, g4⟩ := gaugesIf_conds h2
  obtain ⟨out, pos, d1, d2, d3, d4⟩ := comboIf_conds h3
  obtain ⟨c1, c2, c3⟩ := changeIf_frame h4
  have eq4 : db4.se = db1.se := c3.trans (d4.trans g4)
  rw [← eq4] at e1
  obtain ⟨a1, a2, a3, a4, es, a5, a6⟩ := snapshotTargets_conds (se0 := startSe s e)
    (N := e.targets.Nodup) (s := { s with db := db4 }) ho w3
    (by rw [map_fst_zipIdx]; exact id) (zipIdx_small _) (fun _ target _ => e1 target) h5
  simp only at f2 f3 f4 a2 a3 a4 a6
  have hreads : readsGauges e = (!e.jobConditionalProcessed && e.skill.jobResourcesSnapshot) := by
    simp [readsGauges, hsec]
  have hmod : comboModifier s e = .ok m2 := by
    unfold comboModifier
    rw [hsec]
    simp only
    rw [h1]
    simp only [Py.ok_bind]
    rw [hreads, h2]
    rfl
  refine ⟨a1, a2, m2, m3, g, out, pos, b, cb, es, _, ?_, ?_, ?_, f4, a5, a6⟩
  · refine ⟨hmod, ?_, w2, w3, ⟨db2.res, ?_, ?_⟩, ?_⟩
    · unfold changeModifier
      rw [hsec]
      simp only
      rw [hmod]
      simp only [Py.ok_bind]
      unfold comboIf at h3 ⊢
      split_ifs at h3 ⊢
      · unfold addCombo at h3 ⊢
        rw [g3, f3] at h3
        obtain ⟨⟨c, r⟩, h7, h8⟩ := Py.bind_eq_ok.1 h3
        obtain ⟨mp, h9, h10⟩ := Py.bind_eq_ok.1 h8
        cases h10
        rw [h7]
        simp only [Py.ok_bind]
        rw [h9]
        rfl
      · cases h3
        rfl
    · rw [hreads, ← f2]
      split_ifs at g2 ⊢ <;> exact g2
    · rw [a3]
      rw [d3] at c1
      cases hr : e.jobResourcesAdded <;> simpa [hr] using c1
    · rw [a4, c2]
      rw [g3, f3] at d2
      cases hc : e.comboConditionalProcessed <;> simpa [hc] using d2
  · rw [g1, f1]
  · rw [d1]

/-! ## Executions -/

theorem step_of_ok {s s' : DamageState} {e : Event} (ho : s.events.Ok) (h : processEvent s e = .ok s') :
    ∃ m mg g out pos, Step s e s' m mg g out pos := by
  cases hsec : e.secondary with
  | none =>
    obtain ⟨-, m, mg, g, out, pos, _, _, _, _, h1, -⟩ := apply_step hsec h
    exact ⟨m, mg, g, out, pos, h1⟩
  | some sec =>
    obtain ⟨-, -, m, mg, g, out, pos, _, _, _, _, h1, -⟩ := snap_step ho hsec h
    exact ⟨m, mg, g, out, pos, h1⟩

/-- A relation between hits and instances holds for the result if it holds for events that are applied
and is inherited by events from the events they are split into. -/
theorem reaches_hits {R : List (DamageState × Event) → Hit → DamageInstance → Prop}
    (mono : ∀ tr tr', (∀ p ∈ tr, p ∈ tr') → ∀ h x, R tr h x → R tr' h x)
    (applied : ∀ s e s', e.secondary = none → processEvent s e = .ok s' →
      s'.events = s.events ∧ ∃ xs, List.Forall₂ (fun ti x => ∀ tr, (s, e) ∈ tr →
        R tr { event := e, target := ti.1, index := ti.2 } x) e.targets.zipIdx xs ∧
        s'.q.Perm (s.q ++ xs.filter deals))
    (snapped : ∀ s e s' sec, s.events.Ok → e.secondary = some sec → processEvent s e = .ok s' →
      s'.events.Ok ∧ s'.q = s.q ∧ ∃ es, List.Forall₂ (fun (ti : String × ℕ) e' => e'.targets = [ti.1] ∧
        ∀ tr x, (s, e) ∈ tr → R tr { event := e', target := ti.1, index := 0 } x →
          R tr { event := e, target := ti.1, index := ti.2 } x) e.targets.zipIdx es ∧
        s'.events.q.Perm (s.events.q ++ es))
    {s s' : DamageState} {tr : List (DamageState × Event)} (h : Reaches s tr s')
    (ho : s.events.Ok) (hend : s'.events.q = []) :
    ∃ xs, Changed (R tr) (hitsOf s.events.q) xs ∧ s'.q.Perm (s.q ++ xs.filter deals) := by
  induction h with
  | refl s =>
    rw [hend]
    exact ⟨[], ⟨[], .nil, .refl _⟩, by simp⟩
  | step s s1 s2 e evs tr h1 h2 h3 ih =>
    obtain ⟨o1, o2, -, -⟩ := Events.getNext_spec ho h1
    have hmem : (({ s with events := evs } : DamageState), e) ∈
      ((({ s with events := evs } : DamageState), e) :: tr) := by simp
    cases hsec : e.secondary with
    | none =>
      obtain ⟨c1, ys, c3, c4⟩ := applied _ _ _ hsec h2
      simp only at c1 c4
      obtain ⟨xs, d1, d2⟩ := ih (by rw [c1]; exact o1) hend
      rw [c1] at d1
      have e1 := changed_mono (mono tr ((({ s with events := evs } : DamageState), e) :: tr)
        (fun p hp => List.mem_cons_of_mem _ hp)) d1
      have e2 : Changed (R ((({ s with events := evs } : DamageState), e) :: tr))
          (e.targets.zipIdx.map (fun ti => { event := e, target := ti.1, index := ti.2 })) ys :=
        changed_of_forall₂_map (c3.imp fun ti x hx => hx _ hmem)
      refine ⟨ys ++ xs, changed_perm ?_ (.refl _) (changed_append e2 e1), ?_⟩
      · exact (hitsOf_perm o2).symm
      · refine d2.trans ?_
        rw [List.filter_append, ← List.append_assoc]
        exact c4.append_right _
    | some secondary =>
      obtain ⟨c1, c2, es, c4, c5⟩ := snapped _ _ _ secondary (by exact o1) hsec h2
      simp only at c2 c4 c5
      obtain ⟨xs, d1, d2⟩ := ih c1 hend
      have e1 := changed_mono (mono tr ((({ s with events := evs } : DamageState), e) :: tr)
        (fun p hp => List.mem_cons_of_mem _ hp)) d1
      have e2 := changed_perm (hitsOf_perm (c5.trans List.perm_append_comm)) (.refl _) e1
      rw [hitsOf_append] at e2
      obtain ⟨ys, f1, f2⟩ := e2
      obtain ⟨ya, yb, g1, g2, rfl⟩ := forall₂_append_left f1
      refine ⟨xs, changed_perm (hitsOf_perm o2).symm (.refl _) ⟨ya ++ yb, ?_, f2⟩, ?_⟩
      · rw [hitsOf_cons]
        refine List.rel_append ?_ g2
        exact changed_split c4 (fun ti e' hp => hp.1)
          (fun ti e' x hp hx => hp.2 _ x hmem hx) g1
      · rw [← c2]
        exact d2

/-- `Sources.From` for events of which parts may have been determined. -/
structure FromPart (src : Sources) (tr : List (DamageState × Event)) (h : Hit) (x : DamageInstance) :
    Prop where
  gauge : if h.event.jobConditionalProcessed then src.gauge = "" else
    h.When tr h.event.skill.jobResourcesSnapshot (fun s e =>
      ∃ r, s.db.res.compile e.primary e.skill.name = .ok (src.gauge, r))
  combo : if h.event.comboConditionalProcessed then src.combo = "" ∧ src.positional = ∅ else
    ∃ s m, (s, h.event) ∈ tr ∧ comboModifier s h.event = .ok m ∧ Widens h.event.modifier m ∧
    m.withCondition ⊆ x.modifier.withCondition ∧
    (∃ r, s.db.combo.compileAndUpdate h.event.primary h.event.skill.toSkillCore m = .ok (src.combo, r)) ∧
    PositionalAdds h.event.skill (m.addToCondition src.combo) src.positional
  buffs : match h.event.snapshotBuffs with
    | .done b => src.buffs = "" ∧ x.buffs = b
    | .flag now => h.When tr now (fun s e => ∃ se,
        (s.db.se.expire e.primary).compileBuffs e.primary e.skill.toSkillCore =
          .ok ((x.buffs, src.buffs), se))
  debuffs : h.event.targets.Nodup → match h.event.snapshotDebuffs with
    | .done d => src.debuffs = "" ∧ x.debuffs = d
    | .flag now => h.When tr now (fun s e => ∃ se,
        (s.db.se.expire e.primary).compileDebuffs e.primary e.skill.toSkillCore h.target =
          .ok ((x.debuffs, src.debuffs), se))

theorem when_mono {h : Hit} {tr tr' : List (DamageState × Event)} (hs : ∀ p ∈ tr, p ∈ tr') {now : Bool}
    {At : DamageState → Event → Prop} (hw : h.When tr now At) : h.When tr' now At := by
  unfold Hit.When at hw ⊢
  split_ifs at hw ⊢
  · obtain ⟨s, h1, h2⟩ := hw
    exact ⟨s, hs _ h1, h2⟩
  · obtain ⟨s, e, h1, h2⟩ := hw
    exact ⟨s, e, hs _ h1, h2⟩

/-- The conditions of the instance of a hit. -/
def CondHit (tr : List (DamageState × Event)) (h : Hit) (x : DamageInstance) : Prop :=
  HitSpec tr h x ∧ (h.event.secondary = none ∨ Untouched h.event →
    ∃ src : Sources, x.modifier.withCondition = src.conditions h ∧ FromPart src tr h x)

theorem condHit_mono (tr tr' : List (DamageState × Event)) (hs : ∀ p ∈ tr, p ∈ tr') (h : Hit)
    (x : DamageInstance) (hx : CondHit tr h x) : CondHit tr' h x := by
  refine ⟨hitSpec_mono hs h x hx.1, fun hu => ?_⟩
  obtain ⟨src, h1, h2⟩ := hx.2 hu
  refine ⟨src, h1, ?_, ?_, ?_, ?_⟩
  · have := h2.gauge
    split_ifs at this ⊢
    · exact this
    · exact when_mono hs this
  · have := h2.combo
    split_ifs at this ⊢
    · exact this
    · obtain ⟨s, m, h3, h4⟩ := this
      exact ⟨s, m, hs _ h3, h4⟩
  · have := h2.buffs
    split at this
    · exact this
    · exact when_mono hs this
  · intro hn
    have := h2.debuffs hn
    split at this
    · exact this
    · exact when_mono hs this

theorem textConds_nil : textConds "" = ∅ := by simp [textConds]

theorem condHit_applied (s : DamageState) (e : Event) (s' : DamageState) (hsec : e.secondary = none)
    (h : processEvent s e = .ok s') :
    s'.events = s.events ∧ ∃ xs, List.Forall₂ (fun (ti : String × ℕ) x => ∀ tr, (s, e) ∈ tr →
      CondHit tr { event := e, target := ti.1, index := ti.2 } x) e.targets.zipIdx xs ∧
      s'.q.Perm (s.q ++ xs.filter deals) := by
  obtain ⟨h0, m, mg, g, out, pos, buffs, cb, m4, xs, hst, hm, hm4, hb, hxs, hq⟩ := apply_step hsec h
  refine ⟨h0, xs, hxs.imp ?_, hq⟩
  rintro ti x ⟨ha, c, hc1, hc2⟩ tr hmem
  have hbx : x.buffs = buffs := ha.2.2.2.2.2.2.2.1
  refine ⟨hitSpec_applied hsec hmem ?_ ha, fun _ => ⟨⟨g, out, pos, cb, c⟩, ?_, ?_, ?_, ?_, ?_⟩⟩
  · rcases hs : e.snapshotBuffs with f | b
    · simp only [hs] at hb ⊢
      obtain ⟨se, hb⟩ := hb
      exact ⟨cb, se, hb⟩
    · simp only [hs] at hb ⊢
      exact hb.2
  · rw [hc1, hm4, hm]
    unfold Sources.conditions
    simp only
    ac_rfl
  · obtain ⟨r, h1, -⟩ := hst.gauge
    simp only
    cases hj : e.jobConditionalProcessed with
    | true =>
      simp only [readsGauges, hj, Bool.not_true, Bool.false_and] at h1
      simpa using h1.1
    | false =>
      simp only [readsGauges, hj, hsec, Bool.not_false, Bool.true_and, Option.isNone_none,
        Bool.true_or, if_true] at h1
      simp only [Bool.false_eq_true, if_false]
      unfold Hit.When
      rw [if_pos (.inr hsec)]
      exact ⟨s, hmem, r, h1⟩
  · have h1 := hst.combo
    simp only
    split_ifs at h1 ⊢
    · exact ⟨h1.1, h1.2.1⟩
    · refine ⟨s, m, hmem, hst.modifier, hst.widens, ?_, ⟨_, h1.1⟩, h1.2⟩
      rw [hc1, hm4]
      intro a ha
      simp only [Finset.mem_union, ha, true_or]
  · simp only
    rcases hs : e.snapshotBuffs with f | b
    · simp only [hs] at hb ⊢
      unfold Hit.When
      rw [if_pos (.inr hsec), hbx]
      exact ⟨s, hmem, hb⟩
    · simp only [hs] at hb ⊢
      exact ⟨hb.1, hbx.trans hb.2⟩
  · intro hn
    simp only
    rcases hs : e.snapshotDebuffs with f | b
    · simp only [hs] at hc2 ⊢
      unfold Hit.When
      rw [if_pos (.inr hsec)]
      exact ⟨s, hmem, hc2 hn⟩
    · simp only [hs] at hc2 ⊢
      exact hc2

theorem condHit_snapped (s : DamageState) (e : Event) (s' : DamageState) (sec : ℚ)
    (ho : s.events.Ok) (hsec : e.secondary = some sec) (h : processEvent s e = .ok s') :
    s'.events.Ok ∧ s'.q = s.q ∧ ∃ es, List.Forall₂ (fun (ti : String × ℕ) e' => e'.targets = [ti.1] ∧
      ∀ tr x, (s, e) ∈ tr → CondHit tr { event := e', target := ti.1, index := 0 } x →
        CondHit tr { event := e, target := ti.1, index := ti.2 } x) e.targets.zipIdx es ∧
      s'.events.q.Perm (s.events.q ++ es) := by
  obtain ⟨h0, h0', m, mg, g, out, pos, buffs, cb, es, prio, hst, hm, hmg, hb, hes, hq⟩ :=
    snap_step ho hsec h
  refine ⟨h0, h0', es, hes.imp ?_, hq⟩
  rintro ti e' ⟨ha, p1, p2, p3, c, hc1, hc2⟩
  have ht : e'.targets = [ti.1] := ha.2.2.2.2.2.1
  refine ⟨ht, ?_⟩
  rintro tr x hmem ⟨hx1, hx2⟩
  have hb' : match e.snapshotBuffs with
      | .done b => buffs = .done b
      | .flag true => ∃ b, buffs = .done b ∧ BuffsAt s e b
      | .flag false => buffs = .flag false := by
    rcases hs : e.snapshotBuffs with (_ | _) | b
    · simp only [hs] at hb ⊢
      exact hb.2
    · simp only [hs] at hb ⊢
      obtain ⟨b, se, h1, h2⟩ := hb
      exact ⟨b, h1, cb, se, h2⟩
    · simp only [hs] at hb ⊢
      exact hb.2
  refine ⟨hitSpec_snapped hsec hmem hb' ha hx1, fun hu => ?_⟩
  have hu : Untouched e := by
    rcases hu with hu | hu
    · simp only at hu
      rw [hsec] at hu
      cases hu
    · exact hu
  obtain ⟨a0, a1, a2, a3, a4, a5, a6, a7, a8, a9⟩ := ha
  obtain ⟨src, hc, hf⟩ := hx2 (.inl a2)
  have hte : e'.primary = ({ event := e, target := ti.1, index := ti.2 } : Hit).time := by
    rw [a1]
    simp only [Hit.time, targetTime, appliedAt, hsec, GameConsts.MULTI_TARGET_DELAY_PER_TARGET]
    split_ifs
    · ring
    · rfl
  have happ : ({ event := e, target := ti.1, index := ti.2 } : Hit).AppliedAs e' :=
    ⟨hte, a2, a3, a4, a5, fun hst => by simp only at hst; rw [a8]; simpa only [hst] using hb',
      fun hst => by simp only at hst; simpa only [hst] using a9⟩
  have hne : ¬ e.secondary = none := by rw [hsec]; simp
  -- from the application of the part to that of the hit
  have later : ∀ (now : Bool) (At : DamageState → Event → Prop), now = false →
      ({ event := e', target := ti.1, index := 0 } : Hit).When tr now At →
      ({ event := e, target := ti.1, index := ti.2 } : Hit).When tr now At := by
    intro now At hnow hw
    unfold Hit.When at hw ⊢
    simp only at hw ⊢
    rw [if_pos (.inr a2)] at hw
    rw [if_neg (by simp [hnow, hsec])]
    obtain ⟨s1, h1, h2⟩ := hw
    exact ⟨s1, e', h1, happ, h2⟩
  have atOnce : ∀ (At : DamageState → Event → Prop), At s e →
      ({ event := e, target := ti.1, index := ti.2 } : Hit).When tr true At := by
    intro At hw
    unfold Hit.When
    rw [if_pos (.inl rfl)]
    exact ⟨s, hmem, hw⟩
  -- gauges
  obtain ⟨G, hG1, hG2⟩ : ∃ G, textConds G = textConds g ∪ textConds src.gauge ∧
      ({ event := e, target := ti.1, index := ti.2 } : Hit).When tr e.skill.jobResourcesSnapshot
        (fun s e => ∃ r, s.db.res.compile e.primary e.skill.name = .ok (G, r)) := by
    obtain ⟨r, h1, -⟩ := hst.gauge
    have h2 := hf.gauge
    simp only [p2, hu.gauges, Bool.not_false, Bool.true_and, a3] at h2
    simp only [readsGauges, hu.gauges, hsec, Bool.not_false, Bool.true_and, Option.isNone_some,
      Bool.false_or] at h1
    cases hj : e.skill.jobResourcesSnapshot with
    | true =>
      simp only [hj, if_true] at h1 h2
      exact ⟨g, by rw [h2]; simp [textConds_nil], atOnce _ ⟨r, h1⟩⟩
    | false =>
      simp only [hj, Bool.false_eq_true, if_false] at h1 h2
      exact ⟨src.gauge, by rw [h1.1]; simp [textConds_nil], later _ _ rfl h2⟩
  -- buffs
  obtain ⟨B, hB1, hB2⟩ : ∃ B, textConds B = textConds cb ∪ textConds src.buffs ∧
      match e.snapshotBuffs with
      | .done b => B = "" ∧ x.buffs = b
      | .flag now => ({ event := e, target := ti.1, index := ti.2 } : Hit).When tr now (fun s e => ∃ se,
          (s.db.se.expire e.primary).compileBuffs e.primary e.skill.toSkillCore =
            .ok ((x.buffs, B), se)) := by
    have h2 := hf.buffs
    simp only [a8] at h2
    rcases hs : e.snapshotBuffs with (_ | _) | b
    · simp only [hs] at hb ⊢
      simp only [hb.2] at h2
      exact ⟨src.buffs, by rw [hb.1]; simp [textConds_nil], later _ _ rfl h2⟩
    · simp only [hs] at hb ⊢
      obtain ⟨b, se, h3, h4⟩ := hb
      simp only [h3] at h2
      exact ⟨cb, by rw [h2.1]; simp [textConds_nil], atOnce _ ⟨se, by rw [h2.2]; exact h4⟩⟩
    · simp only [hs] at hb ⊢
      simp only [hb.2] at h2
      exact ⟨"", by rw [hb.1, h2.1]; simp [textConds_nil], rfl, h2.2⟩
  -- debuffs
  obtain ⟨D, hD1, hD2⟩ : ∃ D, textConds D = textConds c ∪ textConds src.debuffs ∧
      (e.targets.Nodup → match e.snapshotDebuffs with
      | .done d => D = "" ∧ x.debuffs = d
      | .flag now => ({ event := e, target := ti.1, index := ti.2 } : Hit).When tr now (fun s e => ∃ se,
          (s.db.se.expire e.primary).compileDebuffs e.primary e.skill.toSkillCore ti.1 =
            .ok ((x.debuffs, D), se))) := by
    have h2 := hf.debuffs (by simp only; rw [a5]; simp)
    simp only at h2
    rcases hs : e.snapshotDebuffs with (_ | _) | b
    · simp only [hs] at hc2 ⊢
      simp only [hc2.2] at h2
      exact ⟨src.debuffs, by rw [hc2.1]; simp [textConds_nil], fun _ => later _ _ rfl h2⟩
    · simp only [hs] at hc2 ⊢
      obtain ⟨b, h3, h4⟩ := hc2
      simp only [h3] at h2
      exact ⟨c, by rw [h2.1]; simp [textConds_nil], fun hn => atOnce _ (by rw [h2.2]; exact h4 hn)⟩
    · simp only [hs] at hc2 ⊢
      simp only [hc2.2] at h2
      exact ⟨"", by rw [hc2.1, h2.1]; simp [textConds_nil], fun _ => ⟨rfl, h2.2⟩⟩
  have hcombo := hf.combo
  simp only [p3, hu.combo, Bool.not_false, if_true] at hcombo
  have hcs := hst.combo
  simp only [hu.combo, Bool.false_eq_true, if_false] at hcs
  have hall : x.modifier.withCondition =
      (⟨G, out, pos, B, D⟩ : Sources).conditions { event := e, target := ti.1, index := ti.2 } := by
    rw [hc]
    unfold Sources.conditions
    simp only
    rw [hc1, hmg, hm, hcombo.1, hcombo.2, a5, hG1, hB1, hD1]
    simp only [textConds_nil, List.length_singleton, gt_iff_lt, lt_self_iff_false, if_false,
      Finset.union_empty]
    ac_rfl
  refine ⟨⟨G, out, pos, B, D⟩, hall, ?_, ?_, hB2, hD2⟩
  · simp only [hu.gauges, Bool.false_eq_true, if_false]
    exact hG2
  · simp only [hu.combo, Bool.false_eq_true, if_false]
    refine ⟨s, m, hmem, hst.modifier, hst.widens, ?_, ⟨_, hcs.1⟩, hcs.2⟩
    rw [hall]
    unfold Sources.conditions
    simp only
    rw [hm, hG1, hB1]
    intro a ha
    simp only [Finset.mem_union] at ha ⊢
    rcases ha with (ha | ha) | ha <;> simp only [ha, true_or, or_true]

/-- The conditions in the result of an execution. -/
theorem reaches_conds {s s' : DamageState} {tr : List (DamageState × Event)} (h : Reaches s tr s')
    (ho : s.events.Ok) (hend : s'.events.q = []) :
    ∃ xs, Changed (CondHit tr) (hitsOf s.events.q) xs ∧ s'.q.Perm (s.q ++ xs.filter deals) :=
  reaches_hits condHit_mono condHit_applied condHit_snapped h ho hend

end Ama
