import Verif.Lemmas.DamageRuns
import Verif.Lemmas.TrackerSafe

/-!
# Lemmas for the absence of exceptions in the damage builder
-/

namespace Ama

open Spec DamageBuilder

/-! ## Steps -/

/-- The invariant of the builder. -/
def SafeDb (P : SkillCore → Prop) (db : DamageBuilder) (gauges : List String) : Prop :=
  CalmTracker P db.se ∧ HasGauges db.res gauges

variable {P : SkillCore → Prop} {gauges : List String} {db : DamageBuilder} {skill : Skill}

theorem addPositional_total (skill : Skill) {m : SkillModifier} (h : m.bonusPercent = none) :
    ∃ m', Utils.addPositional skill m = .ok m' := by
  unfold Utils.addPositional Utils.getPositionalCondition
  cases Utils.damageSpecToUse skill with
  | none => exact ⟨_, rfl⟩
  | some d =>
    simp only [h]
    split_ifs
    · exact ⟨_, rfl⟩
    · exact ⟨_, rfl⟩

theorem bonus_widens {a b : SkillModifier} (h : Widens a b) : b.bonusPercent = a.bonusPercent := by
  rw [h.1]

theorem gaugesIf_total (h : SafeDb P db gauges) (c : Bool) (t : ℚ) (skill : Skill) (m : SkillModifier) :
    ∃ m' db', gaugesIf c db t skill m = .ok (m', db') ∧ SafeDb P db' gauges := by
  unfold gaugesIf
  split_ifs
  · obtain ⟨c, r, h1, h2⟩ := JobResourceTracker.compile_total h.2 t skill.name
    unfold addGauges
    rw [h1]
    exact ⟨_, _, rfl, h.1, h2⟩
  · exact ⟨_, _, rfl, h⟩

theorem changeIf_total (h : SafeDb P db gauges) {m₀ m : SkillModifier}
    (hh : Harmless gauges m₀ skill.toSkillCore) (hm : m₀.withCondition ⊆ m.withCondition) (c : Bool)
    (t : ℚ) : ∃ db', changeIf c db t skill m = .ok db' ∧ SafeDb P db' gauges := by
  unfold changeIf
  split_ifs
  · obtain ⟨r, h1, h2⟩ := JobResourceTracker.addResource_total h.2 hh hm t
    unfold changeGauges
    rw [h1]
    exact ⟨_, rfl, h.1, h2⟩
  · exact ⟨_, rfl, h⟩

theorem comboIf_total (h : SafeDb P db gauges) {m₀ m : SkillModifier}
    (hh : Harmless gauges m₀ skill.toSkillCore) (hw : m₀.withCondition ⊆ m.withCondition) (c : Bool)
    (t : ℚ) (hm : m.bonusPercent = none) :
    ∃ m' db', comboIf c db t skill m = .ok (m', db') ∧ SafeDb P db' gauges := by
  unfold comboIf
  split_ifs
  · obtain ⟨l, hl⟩ := hh.combo m hw
    obtain ⟨r, tr, h1, -⟩ := foldlM_combo_total t skill.name m l true db.combo
    unfold addCombo ComboTracker.compileAndUpdate
    rw [hl, Py.ok_bind, h1]
    simp only [Py.ok_bind, Py.pure_eq]
    obtain ⟨m', h2⟩ := addPositional_total skill (m := m.addToCondition
      (if r = true then SimConsts.COMBO_SUCCESS else SimConsts.COMBO_FAIL))
      (by rw [addToCondition_bonus]; exact hm)
    rw [h2]
    exact ⟨_, _, rfl, h⟩
  · exact ⟨_, _, rfl, h⟩

theorem takeBuffs_total (h : SafeDb P db gauges) (t : ℚ) (skill : Skill) (m : SkillModifier) :
    ∃ b m' db', db.takeBuffs t skill m = .ok (b, m', db') ∧ SafeDb P db' gauges := by
  obtain ⟨r, se, h1, h2⟩ := StatusEffectTracker.compileBuffs_total h.1 t skill.toSkillCore
  unfold takeBuffs
  rw [h1]
  exact ⟨_, _, _, rfl, h2, h.2⟩

theorem takeDebuffs_total (h : SafeDb P db gauges) (t : ℚ) (skill : Skill) (m : SkillModifier)
    (target : String) :
    ∃ b m' db', db.takeDebuffs t skill m target = .ok (b, m', db') ∧ SafeDb P db' gauges := by
  obtain ⟨r, se, h1, h2⟩ := StatusEffectTracker.compileDebuffs_total h.1 t skill.toSkillCore target
  unfold takeDebuffs
  rw [h1]
  exact ⟨_, _, _, rfl, h2, h.2⟩

theorem finalBuffs_total (h : SafeDb P db gauges) (st : SnapStatus) (t : ℚ) (skill : Skill)
    (m : SkillModifier) :
    ∃ b m' db', finalBuffs st db t skill m = .ok (b, m', db') ∧ SafeDb P db' gauges := by
  cases st with
  | done b => exact ⟨b, m, db, rfl, h⟩
  | flag f => exact takeBuffs_total h t skill m

theorem finalDebuffs_total (h : SafeDb P db gauges) (st : SnapStatus) (t : ℚ) (skill : Skill)
    (m : SkillModifier) (target : String) :
    ∃ b m' db', finalDebuffs st db t skill m target = .ok (b, m', db') ∧ SafeDb P db' gauges := by
  cases st with
  | done b => exact ⟨b, m, db, rfl, h⟩
  | flag f => exact takeDebuffs_total h t skill m target

theorem snapBuffs_total (h : SafeDb P db gauges) (st : SnapStatus) (t : ℚ) (skill : Skill)
    (m : SkillModifier) :
    ∃ b m' db', snapBuffs st db t skill m = .ok (b, m', db') ∧ SafeDb P db' gauges := by
  rcases st with (_ | _) | b
  · exact ⟨_, m, db, rfl, h⟩
  · obtain ⟨b, m', db', h1, h2⟩ := takeBuffs_total h t skill m
    unfold snapBuffs
    rw [h1]
    exact ⟨_, _, _, rfl, h2⟩
  · exact ⟨_, m, db, rfl, h⟩

theorem snapDebuffs_total (h : SafeDb P db gauges) (st : SnapStatus) (t : ℚ) (skill : Skill)
    (m : SkillModifier) (target : String) :
    ∃ b m' db', snapDebuffs st db t skill m target = .ok (b, m', db') ∧ SafeDb P db' gauges := by
  rcases st with (_ | _) | b
  · exact ⟨_, m, db, rfl, h⟩
  · obtain ⟨b, m', db', h1, h2⟩ := takeDebuffs_total h t skill m target
    unfold snapDebuffs
    rw [h1]
    exact ⟨_, _, _, rfl, h2⟩
  · exact ⟨_, m, db, rfl, h⟩

/-- By what instances are told apart. -/
def DamageInstance.tag (x : DamageInstance) : ℚ × String := (x.time, x.skill.name)

theorem ltTotal_of_tags {q : List DamageInstance} (h : (q.map DamageInstance.tag).Nodup) :
    Heapq.LtTotalOn DamageInstance.pyLt q := by
  intro a ha b hb
  by_cases hab : a = b
  · subst hab
    unfold DamageInstance.pyLt
    have h1 : a.modifier.pyEq a.modifier = true := by simp [SkillModifier.pyEq]
    have h2 : a.buffs.pyEq a.buffs = true := by simp [StatusEffects.pyEq]
    have h3 : a.debuffs.pyEq a.debuffs = true := by simp [StatusEffects.pyEq]
    simp [h1, h2, h3]
  · have hne : a.tag ≠ b.tag := fun he => hab (List.inj_on_of_nodup_map h ha hb he)
    unfold DamageInstance.pyLt
    by_cases ht : a.time = b.time
    · have hn : a.skill.name ≠ b.skill.name := fun hn => hne (by simp [DamageInstance.tag, ht, hn])
      have hs : a.skill ≠ b.skill := fun hs => hn (by rw [hs])
      rw [if_neg (by simpa using ht), if_pos hs]
      unfold Skill.pyLt
      rw [if_pos hn]
      exact ⟨_, rfl⟩
    · rw [if_pos ht]
      exact ⟨_, rfl⟩

theorem pushInstance_total {q : List DamageInstance} {x : DamageInstance}
    (hd : ∃ r, x.skill.getDamageSpec x.modifier = .ok r)
    (ht : Harms x.skill.toSkillCore → ((x :: q).map DamageInstance.tag).Nodup) :
    ∃ q', pushInstance q x = .ok q' := by
  obtain ⟨r, hr⟩ := hd
  unfold pushInstance
  rw [hr]
  cases r with
  | none => exact ⟨q, rfl⟩
  | some s => exact Heapq.heappush_total (ltTotal_of_tags (ht ⟨_, s, hr⟩))

theorem finalDebuffs_widens {st : SnapStatus} {db db' : DamageBuilder} {t : ℚ} {skill : Skill}
    {a m m' : SkillModifier} {target : String} {d : StatusEffects} (hm : Widens a m)
    (h : db.finalDebuffs st t skill m target = .ok (d, m', db')) : Widens a m' := by
  unfold finalDebuffs at h
  cases st with
  | done x =>
    cases h
    exact hm
  | flag b => exact (takeDebuffs_spec hm h).1

theorem applyTargets_total {e : Event} {buffs : StatusEffects} (hh : Harmless gauges e.modifier e.skill.toSkillCore)
    {l : List (String × ℕ)} {s : DamageState} {m : SkillModifier} (hs : SafeDb P s.db gauges)
    (hm : Widens e.modifier m)
    (ht : Harms e.skill.toSkillCore → (s.q.map DamageInstance.tag ++
      l.map (fun ti => (targetTime e.targets.length ti.2 e.primary, e.skill.name))).Nodup) :
    ∃ s' m', l.foldlM (applyTarget e buffs) (s, m) = .ok (s', m') ∧ SafeDb P s'.db gauges ∧
      Widens e.modifier m' := by
  induction l generalizing s m with
  | nil => exact ⟨s, m, rfl, hs, hm⟩
  | cons ti l ih =>
    have step : ∃ s1 m1, applyTarget e buffs (s, m) ti = .ok (s1, m1) ∧ SafeDb P s1.db gauges ∧
        Widens e.modifier m1 ∧ (Harms e.skill.toSkillCore → (s1.q.map DamageInstance.tag ++
          l.map (fun ti => (targetTime e.targets.length ti.2 e.primary, e.skill.name))).Nodup) := by
      obtain ⟨d, mu, db1, h1, h2⟩ := finalDebuffs_total hs e.snapshotDebuffs e.primary e.skill
        (targetModifier e.targets.length ti.2 m) ti.1
      have hw := finalDebuffs_widens (hm.targetModifier e.targets.length ti.2) h1
      have hx : ∃ q', pushInstance s.q
          { time := targetTime e.targets.length ti.2 e.primary, skill := e.skill, modifier := mu,
            buffs := buffs, debuffs := d, eventId := e.eventId, target := ti.1 } = .ok q' := by
        refine pushInstance_total (hh.damage _ hw.2) fun hx => ?_
        have ht := ht hx
        rw [List.map_cons, List.nodup_middle] at ht
        refine List.Nodup.sublist ?_ ht
        rw [List.map_cons]
        exact List.Sublist.cons_cons _ (List.sublist_append_left _ _)
      obtain ⟨q', hq'⟩ := hx
      refine ⟨{ s with db := db1, q := q' }, if e.targets.length > 1 then m else mu, ?_, h2,
        by split_ifs <;> assumption, ?_⟩
      · unfold applyTarget
        simp only [h1, Py.ok_bind, hq', Py.pure_eq]
      · intro hx
        have ht := ht hx
        obtain ⟨-, hp⟩ := pushInstance_spec hq'
        have hp1 := (hp.map DamageInstance.tag).append_right
          (l.map (fun ti => (targetTime e.targets.length ti.2 e.primary, e.skill.name)))
        refine (hp1.nodup_iff).2 ?_
        refine List.Nodup.sublist ?_ ht
        rw [List.map_append, List.append_assoc]
        refine List.Sublist.append_left ?_ _
        rw [List.map_cons]
        simp only [List.filter_cons, List.filter_nil]
        split_ifs
        · exact List.Sublist.refl _
        · exact List.sublist_cons_self _ _
    obtain ⟨s1, m1, h1, h2, h2', h3⟩ := step
    obtain ⟨s2, m2, h4, h5⟩ := ih h2 h2' h3
    exact ⟨s2, m2, by rw [Py.foldlM_cons, h1, Py.ok_bind, h4], h5⟩

theorem snapshotTargets_total {e : Event} {secondary : ℚ} {prio : ℤ} {buffs : SnapStatus}
    {jp cp : Bool} {l : List (String × ℕ)} {s : DamageState} {m : SkillModifier}
    (ho : s.events.Ok) (hs : SafeDb P s.db gauges) :
    ∃ s' m', l.foldlM (snapshotTarget e secondary prio buffs jp cp) (s, m) = .ok (s', m') ∧
      SafeDb P s'.db gauges := by
  induction l generalizing s m with
  | nil => exact ⟨s, m, rfl, hs⟩
  | cons ti l ih =>
    have step : ∃ s1 m1, snapshotTarget e secondary prio buffs jp cp (s, m) ti = .ok (s1, m1) ∧
        SafeDb P s1.db gauges ∧ s1.events.Ok := by
      obtain ⟨d, mu, db1, h1, h2⟩ := snapDebuffs_total hs e.snapshotDebuffs e.primary e.skill
        (targetModifier e.targets.length ti.2 m) ti.1
      obtain ⟨evs, h3, h4, -⟩ := Events.add_spec s.events ho
        { priority := prio, primary := targetTime e.targets.length ti.2 secondary, secondary := none,
          skill := e.skill, modifier := mu, snapshotBuffs := buffs, snapshotDebuffs := d,
          eventId := some e.eventId, jobResourcesAdded := true, jobConditionalProcessed := jp,
          comboConditionalProcessed := cp, targets := [ti.1] }
      refine ⟨{ s with db := db1, events := evs }, if e.targets.length > 1 then m else mu, ?_, h2, h4⟩
      unfold snapshotTarget
      simp only [h1, Py.ok_bind, h3, Py.pure_eq]
    obtain ⟨s1, m1, h1, h2, h3⟩ := step
    obtain ⟨s2, m2, h4, h5⟩ := ih h3 h2
    exact ⟨s2, m2, by rw [Py.foldlM_cons, h1, Py.ok_bind, h4], h5⟩

/-- By what hits are told apart. -/
def hitTag (h : Hit) : ℚ × String := (h.time, h.event.skill.name)

open Classical in
/-- The tags of the hits that can deal damage. -/
noncomputable def hitTags (l : List Hit) : List (ℚ × String) :=
  (l.filter (fun h => decide (Harms h.event.skill.toSkillCore))).map hitTag

theorem hitTags_perm {l l' : List Hit} (h : l.Perm l') : (hitTags l).Perm (hitTags l') :=
  (h.filter _).map _

theorem hitTags_append (l l' : List Hit) : hitTags (l ++ l') = hitTags l ++ hitTags l' := by
  simp [hitTags]

theorem hitTags_all {l : List Hit} (h : ∀ x ∈ l, Harms x.event.skill.toSkillCore) :
    hitTags l = l.map hitTag := by
  unfold hitTags
  rw [List.filter_eq_self.2 (fun x hx => by simp [h x hx])]

theorem hitTags_none {l : List Hit} (h : ∀ x ∈ l, ¬ Harms x.event.skill.toSkillCore) : hitTags l = [] := by
  unfold hitTags
  rw [List.filter_eq_nil_iff.2 (fun x hx => by simp [h x hx]), List.map_nil]

theorem hitTags_nodup {q : List Event} (h : HitsApart q) : (hitTags (hitsOf q)).Nodup := by
  unfold hitTags
  rw [List.Nodup, List.pairwise_map, List.pairwise_filter]
  refine h.imp fun {a b} hab ha hb he => ?_
  simp only [hitTag, Prod.mk.injEq] at he
  exact hab (by simpa using ha) (by simpa using hb) he.1 he.2

/-- The invariant of the loop. -/
structure SafeState (P : SkillCore → Prop) (s : DamageState) (gauges : List String) : Prop where
  ok : s.events.Ok
  db : SafeDb P s.db gauges
  harmless : ∀ e ∈ s.events.q, (Harmless gauges e.modifier e.skill.toSkillCore ∧ P e.skill.toSkillCore) ∧ e.modifier.bonusPercent = none
  tags : (s.q.map DamageInstance.tag ++ hitTags (hitsOf s.events.q)).Nodup

theorem processEvent_total {s : DamageState} {e : Event} (ho : s.events.Ok) (hs : SafeDb P s.db gauges)
    (he : (Harmless gauges e.modifier e.skill.toSkillCore ∧ P e.skill.toSkillCore) ∧ e.modifier.bonusPercent = none)
    (ht : (s.q.map DamageInstance.tag ++ hitTags (hitsOf [e])).Nodup) :
    ∃ s', processEvent s e = .ok s' ∧ SafeDb P s'.db gauges := by
  obtain ⟨⟨hh, hP⟩, hb⟩ := he
  have h0 : SafeDb P { s.db with se := s.db.se.expire e.primary } gauges :=
    ⟨StatusEffectTracker.calm_expire hs.1 _, hs.2⟩
  unfold processEvent
  simp only
  cases hsec : e.secondary with
  | none =>
    simp only
    unfold applyEvent
    obtain ⟨m1, db1, a1, a2⟩ := gaugesIf_total h0 (!e.jobConditionalProcessed) e.primary e.skill e.modifier
    have w1 := (gaugesIf_spec (Widens.refl _) a1).1
    obtain ⟨db2, b1, b2⟩ := changeIf_total a2 hh w1.2 (!e.jobResourcesAdded) e.primary
    obtain ⟨m3, db3, c1, c2⟩ := comboIf_total b2 hh w1.2 (!e.comboConditionalProcessed) e.primary
      ((bonus_widens w1).trans hb)
    have w3 := (comboIf_spec w1 c1).1
    obtain ⟨b, m4, db4, d1, d2⟩ := finalBuffs_total c2 e.snapshotBuffs e.primary e.skill m3
    have w4 := (finalBuffs_spec w3 d1).1
    obtain ⟨s5, m5, e1, e2, w5⟩ := applyTargets_total (buffs := b) hh (l := e.targets.zipIdx)
      (s := { s with db := db4 }) (m := m4) d2 w4 (by
        intro hx
        rw [hitTags_all (by
          intro x hx'
          simp only [hitsOf, List.flatMap_cons, List.flatMap_nil, List.append_nil, List.mem_map] at hx'
          obtain ⟨-, -, rfl⟩ := hx'
          exact hx)] at ht
        have : (hitsOf [e]).map hitTag = e.targets.zipIdx.map
            (fun ti => (targetTime e.targets.length ti.2 e.primary, e.skill.name)) := by
          simp only [hitsOf, List.flatMap_cons, List.flatMap_nil, List.append_nil, List.map_map]
          apply List.map_congr_left
          intro ti _
          simp only [Function.comp_apply, hitTag, Hit.time, targetTime, appliedAt, hsec,
            GameConsts.MULTI_TARGET_DELAY_PER_TARGET]
          split_ifs
          · rw [mul_comm]
          · rfl
        rw [this] at ht
        exact ht)
    obtain ⟨se, f1, f2⟩ := StatusEffectTracker.add_total e2.1 hP (hh.buff m5 w5.2) (hh.debuff m5 w5.2) e.primary e.targets
    refine ⟨{ s5 with db := { s5.db with se := se } }, ?_, f2, e2.2⟩
    simp only [a1, b1, c1, d1, e1, f1, Py.ok_bind, Py.pure_eq]
  | some secondary =>
    simp only
    unfold snapshotEvent
    obtain ⟨b, m1, db1, a1, a2⟩ := snapBuffs_total h0 e.snapshotBuffs e.primary e.skill e.modifier
    have w1 := (snapBuffs_spec (Widens.refl _) a1).1
    obtain ⟨m2, db2, b1, b2⟩ := gaugesIf_total a2
      (!e.jobConditionalProcessed && e.skill.jobResourcesSnapshot) e.primary e.skill m1
    have w2 := (gaugesIf_spec w1 b1).1
    obtain ⟨m3, db3, c1, c2⟩ := comboIf_total b2 hh w2.2 (!e.comboConditionalProcessed) e.primary
      ((bonus_widens w2).trans hb)
    have w3 := (comboIf_spec w2 c1).1
    obtain ⟨db4, d1, d2⟩ := changeIf_total c2 hh w3.2 (!e.jobResourcesAdded) e.primary
    obtain ⟨s5, m5, e1, e2⟩ := snapshotTargets_total (e := e) (secondary := secondary)
      (prio := Utils.transformTimeToPrio secondary +
        (Utils.transformTimeToPrio e.primary - e.priority)) (buffs := b)
      (jp := !e.jobConditionalProcessed && e.skill.jobResourcesSnapshot)
      (cp := !e.comboConditionalProcessed) (l := e.targets.zipIdx)
      (s := { s with db := db4 }) (m := m3) ho d2
    refine ⟨s5, ?_, e2⟩
    simp only [a1, b1, c1, d1, e1, Py.ok_bind, Py.pure_eq]

theorem forall₂_map_eq {α β γ : Type} {R : α → β → Prop} {f : α → γ} {g : β → γ} {l : List α}
    {m : List β} (h : List.Forall₂ R l m) (hr : ∀ a b, R a b → f a = g b) : l.map f = m.map g := by
  induction h with
  | nil => rfl
  | cons h1 _ ih => rw [List.map_cons, List.map_cons, hr _ _ h1, ih]

theorem mem_of_hit {q : List Event} {h : Hit} (hm : h ∈ hitsOf q) : h.event ∈ q := by
  unfold hitsOf at hm
  simp only [List.mem_flatMap, List.mem_map] at hm
  obtain ⟨e, he, ti, -, rfl⟩ := hm
  exact he

theorem hit_skill {e : Event} {h : Hit} (hm : h ∈ e.targets.zipIdx.map
    (fun ti => ({ event := e, target := ti.1, index := ti.2 } : Hit))) : e.skill = h.event.skill := by
  obtain ⟨-, -, rfl⟩ := List.mem_map.1 hm
  rfl

theorem deals_some {x : DamageInstance} (h : deals x = true) :
    ∃ d, x.skill.getDamageSpec x.modifier = .ok (some d) := by
  unfold deals at h
  split at h
  · exact ⟨_, by assumption⟩
  · cases h

/-- Hits of different names or times are apart. -/
theorem hitsApart_of_nodup {q : List Event}
    (h : ((hitsOf q).map (fun h => (h.time, h.event.skill.name))).Nodup) : HitsApart q := by
  rw [List.Nodup, List.pairwise_map] at h
  exact h.imp fun hab _ _ ht hn => hab (by rw [ht, hn])

theorem safe_step {s s' : DamageState} {e : Event} {evs : Events} (hs : SafeState P s gauges)
    (hn : s.events.getNext = .ok (e, evs)) (hdb : SafeDb P s'.db gauges)
    (h : processEvent { s with events := evs } e = .ok s') : SafeState P s' gauges := by
  obtain ⟨o1, o2, -⟩ := Events.getNext_spec hs.ok hn
  have htag : (s.q.map DamageInstance.tag ++ hitTags (hitsOf (e :: evs.q))).Nodup :=
    ((hitTags_perm (hitsOf_perm o2)).append_left _).nodup_iff.1 hs.tags
  have hmem : ∀ b ∈ e :: evs.q, (Harmless gauges b.modifier b.skill.toSkillCore ∧ P b.skill.toSkillCore) ∧ b.modifier.bonusPercent = none :=
    fun b hb => hs.harmless b (o2.mem_iff.2 hb)
  unfold processEvent at h
  simp only at h
  cases hsec : e.secondary with
  | none =>
    rw [hsec] at h
    obtain ⟨c1, buffs, ys, c2, c3, c4⟩ := applyEvent_spec h
    simp only at c1 c2 c3 c4
    refine ⟨by rw [c1]; exact o1, hdb, ?_, ?_⟩
    · rw [c1]
      exact fun b hb => hmem b (List.mem_cons_of_mem _ hb)
    · rw [c1]
      have hy : (e.targets.zipIdx.map
          (fun ti => ({ event := e, target := ti.1, index := ti.2 } : Hit))).map hitTag =
          ys.map DamageInstance.tag := by
        rw [List.map_map]
        refine forall₂_map_eq c3 fun ti x hx => ?_
        obtain ⟨a1, a2, -⟩ := hx
        simp only [Function.comp_apply, hitTag, DamageInstance.tag, a1, a2, Hit.time, targetTime,
          appliedAt, hsec, GameConsts.MULTI_TARGET_DELAY_PER_TARGET]
        split_ifs
        · rw [mul_comm]
        · rfl
      rw [hitsOf_cons, hitTags_append, ← List.append_assoc] at htag
      refine (((c4.map DamageInstance.tag).append_right _).nodup_iff).2 ?_
      refine List.Nodup.sublist ?_ htag
      rw [List.map_append]
      refine List.Sublist.append_right (List.Sublist.append_left ?_ _) _
      by_cases hx : Harms e.skill.toSkillCore
      · rw [hitTags_all (fun x hm => hit_skill hm ▸ hx), hy]
        exact List.filter_sublist.map _
      · have : ys.filter deals = [] := by
          refine List.filter_eq_nil_iff.2 fun y hyy hde => hx ?_
          obtain ⟨ti, -, hr⟩ := changed_mem_right ⟨ys, c3, .refl _⟩ hyy
          obtain ⟨d, hd⟩ := deals_some hde
          exact ⟨_, d, hr.2.1 ▸ hd⟩
        rw [this]
        exact List.nil_sublist _
  | some secondary =>
    rw [hsec] at h
    obtain ⟨c1, c2, buffs, es, c3, c4, c5⟩ := snapshotEvent_spec (by exact o1) h
    simp only at c2 c3 c4 c5
    refine ⟨c1, hdb, ?_, ?_⟩
    · intro b hb
      rw [c5.mem_iff, List.mem_append] at hb
      rcases hb with hb | hb
      · exact hmem b (List.mem_cons_of_mem _ hb)
      · obtain ⟨i, hi, rfl⟩ := List.getElem_of_mem hb
        have hl := c4.length_eq
        have := (List.forall₂_iff_get.1 c4).2 i (by omega) hi
        obtain ⟨-, -, -, a3, -, -, a6, -⟩ := this
        simp only [List.get_eq_getElem] at a3 a6
        rw [a3, bonus_widens a6]
        obtain ⟨⟨h1, h2⟩, h3⟩ := hmem e (by simp)
        exact ⟨⟨h1.mono a6.2, h2⟩, h3⟩
    · rw [c2]
      have hy : (e.targets.zipIdx.map
          (fun ti => ({ event := e, target := ti.1, index := ti.2 } : Hit))).map hitTag =
          (hitsOf es).map hitTag := by
        have h1 : hitsOf es = es.map (fun e' => ⟨e', e'.targets.headD "", 0⟩) := by
          have : ∀ e' ∈ es, ∃ t, e'.targets = [t] := by
            intro e' he'
            obtain ⟨ti, -, hr⟩ := changed_mem_right ⟨es, c4, .refl _⟩ he'
            exact ⟨ti.1, hr.2.2.2.2.2.1⟩
          clear c4 c5
          induction es with
          | nil => rfl
          | cons a es ih =>
            obtain ⟨t, ht⟩ := this a (by simp)
            rw [hitsOf_cons, ih (fun e' he' => this e' (List.mem_cons_of_mem _ he')), ht]
            simp [ht]
        rw [h1, List.map_map, List.map_map]
        refine forall₂_map_eq c4 fun ti x hx => ?_
        obtain ⟨-, a1, a2, a3, -, a5, -⟩ := hx
        have hone : ¬ x.targets.length > 1 := by rw [a5]; simp
        simp only [Function.comp_apply, hitTag, a3, Hit.time, if_neg hone, appliedAt, a2, a1, hsec,
          targetTime, GameConsts.MULTI_TARGET_DELAY_PER_TARGET]
        split_ifs
        · rw [mul_comm]
        · rfl
      have hsk : ∀ e' ∈ es, e'.skill = e.skill := by
        intro e' he'
        obtain ⟨ti, -, hr⟩ := changed_mem_right ⟨es, c4, .refl _⟩ he'
        exact hr.2.2.2.1
      have hz : hitTags (e.targets.zipIdx.map
          (fun ti => ({ event := e, target := ti.1, index := ti.2 } : Hit))) = hitTags (hitsOf es) := by
        by_cases hx : Harms e.skill.toSkillCore
        · rw [hitTags_all (fun x hm => hit_skill hm ▸ hx), hitTags_all (fun x hx' => ?_), hy]
          rw [hsk _ (mem_of_hit hx')]
          exact hx
        · rw [hitTags_none (fun x hm => hit_skill hm ▸ hx), hitTags_none (fun x hx' => ?_)]
          rw [hsk _ (mem_of_hit hx')]
          exact hx
      have h2 := hitTags_perm ((hitsOf_perm c5).trans (by rw [hitsOf_append]))
      refine ((h2.append_left _).nodup_iff).2 ?_
      rw [hitsOf_cons, hitTags_append, hz] at htag
      rw [hitTags_append]
      refine ((List.perm_append_comm.append_left _).nodup_iff).1 htag

theorem safe_next {s : DamageState} {e : Event} {evs : Events} (hs : SafeState P s gauges)
    (h1 : s.events.getNext = .ok (e, evs)) :
    ∃ s', processEvent { s with events := evs } e = .ok s' ∧ SafeDb P s'.db gauges := by
  obtain ⟨o1, o2, -⟩ := Events.getNext_spec hs.ok h1
  have hm : e ∈ s.events.q := o2.mem_iff.2 (by simp)
  refine processEvent_total (s := { s with events := evs }) o1 hs.db (hs.harmless e hm) ?_
  refine List.Nodup.sublist ?_ (((hitTags_perm (hitsOf_perm o2)).append_left _).nodup_iff.1 hs.tags)
  refine List.Sublist.append_left ?_ _
  refine List.Sublist.map _ (List.Sublist.filter _ ?_)
  rw [hitsOf_cons]
  simp only [hitsOf, List.flatMap_cons, List.flatMap_nil, List.append_nil]
  exact List.sublist_append_left _ _

theorem reaches_safe {s s' : DamageState} {tr : List (DamageState × Event)} (h : Reaches s tr s')
    (hs : SafeState P s gauges) : SafeState P s' gauges := by
  induction h with
  | refl s => exact hs
  | step s s1 s2 e evs tr h1 h2 h3 ih =>
    obtain ⟨s1', h4, h5⟩ := safe_next hs h1
    rw [h2] at h4
    cases h4
    exact ih (safe_step hs h1 h5 h2)

/-- The invariant holds at the start. -/
theorem safe_start {db : DamageBuilder} {events : Events} {stats : Stats} {lib : SkillLibrary}
    {settings : Dict String JobResourceSettings} (hi : DamageBuilder.init stats lib = .ok db)
    (hg : lib.getAllResourceSettings stats.jobClass = .ok settings) (ht : Timeline events)
    (hh : ∀ e ∈ events.q, Harmless settings.keys e.modifier e.skill.toSkillCore ∧ e.modifier.bonusPercent = none)
    (ha : Agree (fun k => ∃ e ∈ events.q, e.skill.toSkillCore = k))
    (hd : HitsApart events.q) :
    SafeState (fun k => ∃ e ∈ events.q, e.skill.toSkillCore = k) { db := db, events := events }
      settings.keys := by
  have hdb : SafeDb (fun k => ∃ e ∈ events.q, e.skill.toSkillCore = k) db settings.keys := by
    unfold DamageBuilder.init at hi
    obtain ⟨p, -, hi⟩ := Py.bind_eq_ok.1 hi
    rw [hg, Py.ok_bind] at hi
    obtain ⟨b, -, hi⟩ := Py.bind_eq_ok.1 hi
    cases hi
    refine ⟨⟨ha, StatusEffectTracker.given_nil, fun kv h => by simp at h⟩, ?_, fun g h => h⟩
    simp [JobResourceTracker.init, Dict.keys]
  exact ⟨timeline_ok ht, hdb, fun e he => ⟨⟨(hh e he).1, e, he, rfl⟩, (hh e he).2⟩, by simpa using hitTags_nodup hd⟩

end Ama
