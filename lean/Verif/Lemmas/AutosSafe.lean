import Mathlib.Algebra.Order.BigOperators.GroupWithZero.List
import Verif.Lemmas.BuilderSafe

/-!
# Lemmas for the absence of exceptions among auto-attacks
-/

namespace Ama

open Spec

/-! ## How much faster auto-attacks can get -/

theorem leftOf_nonneg {l : List (String × ℚ)} (h : ∀ x ∈ l, 0 ≤ x.2 ∧ x.2 ≤ 1) : 0 ≤ leftOf l := by
  unfold leftOf
  refine List.prod_nonneg ?_
  intro a ha
  obtain ⟨x, hx, rfl⟩ := List.mem_map.1 ha
  linarith [(h x hx).2]

theorem leftOf_erase {l : List (String × ℚ)} {x : String × ℚ} (h : x ∈ l) :
    leftOf l = (1 - x.2) * leftOf (l.erase x) := by
  unfold leftOf
  rw [((List.perm_cons_erase h).map (fun x : String × ℚ => 1 - x.2)).prod_eq]
  simp

/-- Effects of different names leave at least what the list leaves. -/
theorem leftOf_le {L : List (String × StatusEffectSpec)} (hn : (L.map Prod.fst).Nodup)
    {l : List (String × ℚ)} (hl : ∀ x ∈ l, 0 ≤ x.2 ∧ x.2 ≤ 1)
    (h : ∀ p ∈ L, p.2.autoAttackDelayReduction ≤ 0 ∨
      ∃ x ∈ l, x.1 = p.1 ∧ p.2.autoAttackDelayReduction ≤ x.2) :
    leftOf l ≤ (L.map (fun p => 1 - p.2.autoAttackDelayReduction)).prod := by
  induction L generalizing l with
  | nil =>
    unfold leftOf
    simp only [List.map_nil, List.prod_nil]
    clear h hn
    induction l with
    | nil => simp
    | cons x l ih =>
      have h1 := hl x (by simp)
      have h2 := ih (fun y hy => hl y (List.mem_cons_of_mem _ hy))
      have h3 := leftOf_nonneg (l := l) (fun y hy => hl y (List.mem_cons_of_mem _ hy))
      unfold leftOf at h3
      rw [List.map_cons, List.prod_cons]
      nlinarith
  | cons p L ih =>
    rw [List.map_cons, List.nodup_cons] at hn
    rw [List.map_cons, List.prod_cons]
    rcases h p (by simp) with h1 | ⟨x, hx, h1, h2⟩
    · have h3 := ih hn.2 hl (fun q hq => h q (List.mem_cons_of_mem _ hq))
      have h4 := leftOf_nonneg hl
      nlinarith
    · have hl' : ∀ y ∈ l.erase x, 0 ≤ y.2 ∧ y.2 ≤ 1 := fun y hy => hl y (List.mem_of_mem_erase hy)
      have h3 := ih hn.2 hl' (by
        intro q hq
        rcases h q (List.mem_cons_of_mem _ hq) with h4 | ⟨y, hy, h4, h5⟩
        · exact .inl h4
        · refine .inr ⟨y, ?_, h4, h5⟩
          refine (List.mem_erase_of_ne ?_).2 hy
          rintro rfl
          refine hn.1 ?_
          rw [← h1, h4]
          exact List.mem_map_of_mem hq)
      rw [leftOf_erase hx]
      have h4 := leftOf_nonneg hl'
      have h5 := hl x hx
      calc (1 - x.2) * leftOf (l.erase x) ≤ (1 - p.2.autoAttackDelayReduction) * leftOf (l.erase x) :=
            mul_le_mul_of_nonneg_right (by linarith) h4
        _ ≤ _ := mul_le_mul_of_nonneg_left h3 (by linarith)

theorem compileEffects_pace {P : SkillCore → Prop}
    {get : SkillCore → SkillModifier → Py (Option StatusEffectSpec)} {es : Effects} (h : Given get P es)
    {l : List (String × ℚ)} (hf : Faster P get l) {priority : List String} {t : ℚ} {skill : SkillCore}
    {agg : StatusEffects} {c : String} {es' : Effects}
    (he : StatusEffectTracker.compileEffects priority t es skill.statusEffectDenylist skill.name =
      .ok (agg, c, es')) : leftOf l ≤ agg.autoAttackDelayMult := by
  obtain ⟨x, y, -, -, h3, -⟩ := compileEffects_spec h.1 he
  have hn := (StatusEffectTracker.specsOf_fst_sublist es (contribNames priority t es skill.statusEffectDenylist
    skill.name)).nodup ((contribNames_sublist _ _ _ _ _).nodup h.1)
  have hle := leftOf_le hn hf.1 (by
    intro p hp
    obtain ⟨a, m, ha, h4, hg, -⟩ := StatusEffectTracker.given_spec h hp
    rcases hf.2 a m p.2 ha hg with h5 | ⟨x, hx, h5, h6⟩
    · exact .inl h5
    · exact .inr ⟨x, hx, h5.trans h4, h6⟩)
  rw [h3]
  refine hle.trans (le_of_eq ?_)
  simp [aggFrom]

namespace RotationBuilder

variable {P : SkillCore → Prop} {gauges : List String}

/-- What the loop over auto-attacks needs of a builder. -/
structure SoundAutos (P : SkillCore → Prop) (gauges : List String) (rb : RotationBuilder) : Prop
    extends Sound P gauges rb where
  plain : ∀ k, P k → Hastens k → Harmless gauges {} k
  channels : ∀ p ∈ rb.qTimed, ∃ c, p.skill.getChannelingSpec p.modifier = .ok c
  names : ∀ p ∈ rb.qTimed, ∀ q ∈ rb.qTimed, p.t = q.t → p.skill.name = q.skill.name → p.skill = q.skill
  downtime : ∀ ws, rb.downtime ≠ .tuple ws

/-! ## Effects that change the speed -/

theorem speedTimeline_total {rb : RotationBuilder}
    (he : ∀ e ∈ rb.events.q, P e.skill.toSkillCore ∧ Harmless gauges e.modifier e.skill.toSkillCore) :
    ∃ tl, rb.speedTimeline = .ok tl ∧ ∀ x ∈ tl, P x.2.toSkillCore ∧ Hastens x.2.toSkillCore := by
  have key : ∀ (l : List Event) (res : List (ℚ × Skill)),
      (∀ e ∈ l, P e.skill.toSkillCore ∧ Harmless gauges e.modifier e.skill.toSkillCore) →
      (∀ x ∈ res, P x.2.toSkillCore ∧ Hastens x.2.toSkillCore) →
      ∃ r, l.foldlM speedStep res = .ok r ∧ ∀ x ∈ r, P x.2.toSkillCore ∧ Hastens x.2.toSkillCore := by
    intro l
    induction l with
    | nil => exact fun res _ h => ⟨res, rfl, h⟩
    | cons e l ih =>
      intro res h1 h2
      obtain ⟨hP, hh⟩ := h1 e (by simp)
      obtain ⟨b, hb⟩ := hh.buff e.modifier (Finset.Subset.refl _)
      obtain ⟨d, hd⟩ := hh.debuff e.modifier (Finset.Subset.refl _)
      have step : ∃ r, speedStep res e = .ok r ∧ ∀ x ∈ r, P x.2.toSkillCore ∧ Hastens x.2.toSkillCore := by
        unfold speedStep
        rw [hb, Py.ok_bind, hd, Py.ok_bind]
        split_ifs with hsp
        · exact ⟨_, rfl, h2⟩
        · refine ⟨_, rfl, fun x hx => ?_⟩
          rcases List.mem_append.1 hx with hx | hx
          · exact h2 x hx
          · rw [List.mem_singleton.1 hx]
            refine ⟨hP, ?_⟩
            by_cases hsb : hasSpeed b = true
            · exact ⟨_, _, .inl hb, (hasSpeed_iff b).1 hsb⟩
            · refine ⟨_, _, .inr hd, (hasSpeed_iff d).1 ?_⟩
              by_contra hsd
              simp [Bool.not_eq_true] at hsb hsd
              simp [hsb, hsd] at hsp
      obtain ⟨r, h3, h4⟩ := step
      obtain ⟨r', h5, h6⟩ := ih r (fun e he => h1 e (List.mem_cons_of_mem _ he)) h4
      exact ⟨r', by rw [Py.foldlM_cons, h3, Py.ok_bind, h5], h6⟩
  obtain ⟨r, h1, h2⟩ := key rb.events.getQ [] (by
    intro e hee
    exact he e ((sortBy_perm _ _).mem_iff.1 hee)) (by simp)
  unfold speedTimeline
  rw [h1]
  exact ⟨_, rfl, fun x hx => h2 x ((sortBy_perm _ _).mem_iff.1 hx)⟩

theorem applicable_total {rb : RotationBuilder} (h : SoundAutos P gauges rb) {b d : List (String × ℚ)}
    (hb : Faster P SkillCore.getBuffSpec b) (hd : Faster P SkillCore.getDebuffSpec d)
    {tl : List (ℚ × Skill)} (htl : ∀ x ∈ tl, P x.2.toSkillCore ∧ Hastens x.2.toSkillCore) (t : ℚ) (skill : Skill) (targets : List String) :
    ∃ r, rb.applicableStatusEffects tl t skill {} targets = .ok r ∧
      leftOf b ≤ r.1.autoAttackDelayMult ∧ leftOf d ≤ r.2.autoAttackDelayMult := by
  obtain ⟨⟨tr, combo⟩, h1, h2⟩ := initTrackers_total h.toSound
  have key : ∀ (l : List (ℚ × Skill)) (tr : Trackers), (∀ x ∈ l, P x.2.toSkillCore ∧ Hastens x.2.toSkillCore) → SafeTr P gauges tr →
      ∃ tr', l.foldlM (applicableStep {} targets) tr = .ok tr' ∧ SafeTr P gauges tr' := by
    intro l
    induction l with
    | nil => exact fun tr _ h => ⟨tr, rfl, h⟩
    | cons x l ih =>
      intro tr h3 h4
      obtain ⟨hP, hH⟩ := h3 x (by simp)
      have hh := h.plain _ hP hH
      obtain ⟨se, h5, h6⟩ := StatusEffectTracker.add_total (StatusEffectTracker.calm_expire h4.1 x.1) hP
        (hh.buff {} (Finset.Subset.refl _)) (hh.debuff {} (Finset.Subset.refl _)) x.1 targets
      obtain ⟨res, h7, h8⟩ := JobResourceTracker.addResource_total h4.2 hh (m := {}) (Finset.Subset.refl _) x.1
      obtain ⟨tr', h9, h10⟩ := ih ⟨se, res⟩ (fun y hy => h3 y (List.mem_cons_of_mem _ hy)) ⟨h6, h8⟩
      refine ⟨tr', ?_, h10⟩
      rw [Py.foldlM_cons]
      unfold applicableStep
      simp only [h5, h7, Py.ok_bind, Py.pure_eq]
      exact h9
  obtain ⟨tr', h3, h4⟩ := key (tl.filter (fun x => decide (x.1 ≤ t))) tr
    (fun x hx => htl x (List.mem_filter.1 hx).1) h2
  have h5 := StatusEffectTracker.calm_expire h4.1 t
  generalize hsk : (((tl.filter (fun x => decide (x.1 ≤ t))).map (·.2)).getLast?.getD skill) = sk
  obtain ⟨ab, cb, eb, g1, g2⟩ := StatusEffectTracker.compileEffects_total h5.buffs h5.agree.buffs
    (tr'.se.expire t).priority t sk.toSkillCore
  have h6 : CalmTracker P { tr'.se.expire t with buffs := eb } := ⟨h5.agree, g2, h5.debuffs⟩
  obtain ⟨ad, cd, ed, g3, g4⟩ := StatusEffectTracker.compileEffects_total
    (StatusEffectTracker.given_lookup h6 SimConsts.DEFAULT_TARGET) h6.agree.debuffs
    (tr'.se.expire t).priority t sk.toSkillCore
  obtain ⟨cr, res, g5, g6⟩ := JobResourceTracker.compile_total h4.2 t sk.name
  refine ⟨(ab, ad), ?_, compileEffects_pace h5.buffs hb g1,
    compileEffects_pace (StatusEffectTracker.given_lookup h6 SimConsts.DEFAULT_TARGET) hd g3⟩
  unfold applicableStatusEffects
  simp only [h1, Py.ok_bind, h3, hsk]
  unfold StatusEffectTracker.compileBuffs
  simp only [g1, Py.ok_bind, Py.pure_eq]
  unfold StatusEffectTracker.compileDebuffs
  simp only [g3, Py.ok_bind, Py.pure_eq, g5]

/-! ## Periods without auto-attacks -/

theorem process_total {tr : ChannelingTracker} (h : tr.isFinalized = false) (t : ℚ) {skill : SkillCore}
    {m : SkillModifier} (hc : ∃ c, skill.getChannelingSpec m = .ok c) :
    ∃ tr', tr.process t skill m = .ok tr' ∧ tr'.isFinalized = false := by
  obtain ⟨c, hc⟩ := hc
  unfold ChannelingTracker.process
  simp only [h, Bool.not_false, pyAssert, if_true, Py.ok_bind]
  split_ifs with hw
  · exact ⟨_, rfl, h⟩
  · rw [hc, Py.ok_bind]
    cases c with
    | none =>
      simp only
      cases hch : tr.channel with
      | none => exact ⟨_, rfl, h⟩
      | some ch =>
        simp only
        split_ifs
        · exact ⟨_, rfl, rfl⟩
        · exact ⟨_, rfl, h⟩
        · exact ⟨_, rfl, h⟩
    | some spec =>
      simp only [ChannelingTracker.startChanneling]
      cases hch : tr.channel with
      | none =>
        simp only [hch, Option.isNone_none, pyAssert, if_true, Py.ok_bind]
        exact ⟨_, rfl, h⟩
      | some ch =>
        simp only [ChannelingTracker.endChannelingAt, Option.isNone_none, pyAssert, if_true, Py.ok_bind]
        exact ⟨_, rfl, h⟩

theorem noAutoStep_total {rb : RotationBuilder} (h : SoundAutos P gauges rb) {p : TimedPress}
    (hp : p ∈ rb.qTimed) {s : NoAutoState} (hs : SafeTr P gauges s.tr) (hc : s.channel.isFinalized = false) :
    ∃ s', rb.noAutoStep s p = .ok s' ∧ SafeTr P gauges s'.tr ∧ s'.channel.isFinalized = false := by
  have hf := h.timed p hp
  obtain ⟨ch, h1, h2⟩ := process_total hc p.t (h.channels p hp)
  obtain ⟨b, d, m1, tr1, h3, h4, h5, -⟩ := resolveConditions_total hs h.whole p.t p.skill p.modifier
  have hm1 := (resolveConditions_fields h3).1
  obtain ⟨c, combo, h6⟩ := comboUpdate_total s.combo p.t hf.playable.harmless hm1
  have hm2 : p.modifier.withCondition ⊆ (m1.addToCondition c).withCondition :=
    hm1.trans (addToCondition_fields m1 c).1
  obtain ⟨ts, h7, h8⟩ := hf.playable.timing _ hm2
  obtain ⟨ct, h9, -⟩ := getCastTime_total h.speed h8 (m1.addToCondition c) h5
  obtain ⟨se, h10, h11⟩ := StatusEffectTracker.add_total h4.1 hf.within.1
    (hf.playable.harmless.buff _ hm2) (hf.playable.harmless.debuff _ hm2) p.t [rb.defaultTarget]
  obtain ⟨res, h12, h13⟩ := JobResourceTracker.addResource_total h4.2 hf.playable.harmless hm2 p.t
  refine ⟨_, by
    unfold noAutoStep
    simp only [h1, h3, h6, h7, h9, h10, h12, Py.ok_bind, Py.pure_eq]
    rfl, ⟨h11, h13⟩, h2⟩

theorem noAutoLoop_total {rb : RotationBuilder} (h : SoundAutos P gauges rb) (n : ℕ) (q : List TimedPress)
    (hn : q.length ≤ n) (hq : ∀ p ∈ q, p ∈ rb.qTimed) {s : NoAutoState} (hs : SafeTr P gauges s.tr)
    (hc : s.channel.isFinalized = false) :
    ∃ s', rb.noAutoLoop n s q = .ok s' ∧ s'.channel.isFinalized = false := by
  induction n generalizing q s with
  | zero =>
    unfold noAutoLoop
    rw [if_neg (by omega)]
    exact ⟨_, rfl, hc⟩
  | succ n ih =>
    unfold noAutoLoop
    by_cases hq0 : q.length > 0
    · rw [if_pos hq0]
      obtain ⟨p, q', h1⟩ := Heapq.heappop_total (List.length_pos_iff.1 hq0)
        (timedPress_ltTotal (fun a ha b hb => h.names a (hq a ha) b (hq b hb)))
      obtain ⟨-, k2, -⟩ := Heapq.heappop_spec (key := fun _ => (0 : ℕ))
        (fun a b r _ => by split_ifs <;> exact le_rfl) (fun i a b _ _ _ => le_rfl) h1
      obtain ⟨s1, h2, h3, h4⟩ := noAutoStep_total h (hq p (k2.mem_iff.2 (by simp))) hs hc
      obtain ⟨s2, h5, h6⟩ := ih q' (by
          have := k2.length_eq
          simp only [List.length_cons] at this
          omega) (fun a ha => hq a (k2.mem_iff.2 (List.mem_cons_of_mem _ ha))) h3 h4
      refine ⟨s2, ?_, h6⟩
      simp only [h1, Py.ok_bind, h2, h5]
    · rw [if_neg hq0]
      exact ⟨_, rfl, hc⟩

theorem periods_total {rb : RotationBuilder} (h : SoundAutos P gauges rb) :
    ∃ ps, rb.getNoAutoPeriods = .ok ps := by
  obtain ⟨⟨tr, combo⟩, h1, h2⟩ := initTrackers_total h.toSound
  obtain ⟨s, h3, h4⟩ := noAutoLoop_total h rb.qTimed.length rb.qTimed le_rfl (fun _ => id)
    (s := { tr, combo, channel := {}, casts := [] }) h2 rfl
  unfold getNoAutoPeriods
  simp only [h1, Py.ok_bind, h3]
  unfold ChannelingTracker.finalize
  simp only [h4, Bool.not_false, pyAssert, if_true, Py.ok_bind, Py.pure_eq, ChannelingTracker.getWindows]
  exact ⟨_, rfl⟩

/-! ## The loop -/

theorem next_total {rb : RotationBuilder} (hd : ∀ ws, rb.downtime ≠ .tuple ws) (t : ℚ)
    (periods : List (ℚ × WithTop ℚ)) (target : String) :
    ∃ t', rb.getNextAutoTime t periods target = .ok t' ∧ (t : WithTop ℚ) ≤ t' := by
  have hfw : ∃ t1, rb.forward t target = .ok t1 ∧ t ≤ t1 := by
    have hws : ∃ ws, rb.windowsFor target = .ok ws := by
      unfold windowsFor
      cases h : rb.downtime with
      | tuple ws => exact absurd h (hd ws)
      | dict d => exact ⟨_, rfl⟩
      | known a b => exact ⟨_, rfl⟩
    obtain ⟨ws, hws⟩ := hws
    unfold forward
    rw [hws, Py.ok_bind]
    split
    · next w hw =>
      refine ⟨_, rfl, ?_⟩
      have := List.find?_some hw
      simp only [Bool.and_eq_true, decide_eq_true_eq] at this
      exact this.1.2.le
    · exact ⟨_, rfl, le_rfl⟩
  obtain ⟨t1, h1, h2⟩ := hfw
  unfold getNextAutoTime
  rw [h1, Py.ok_bind]
  split
  · exact ⟨_, rfl, WithTop.coe_le_coe.2 h2⟩
  · next x xs hx =>
    refine ⟨_, rfl, (WithTop.coe_le_coe.2 h2).trans ?_⟩
    have hm : x ∈ periods.filter (fun x => decide (x.1 ≤ t1) && decide (x.2 ≥ (t1 : WithTop ℚ))) := by
      rw [hx]
      simp
    have := (List.mem_filter.1 hm).2
    simp only [Bool.and_eq_true, decide_eq_true_eq] at this
    exact this.2.trans ((foldl_max xs x.2).2 (.inl rfl))

theorem truncate_ten {x : ℚ} (h : 10 ≤ x) : (10 : ℚ) ≤ (Utils.truncateToDigit x 2 : ℚ) := by
  have h1 : (1 : ℤ) ≤ ⌊x / 10⌋ := Int.le_floor.2 (by push_cast; linarith)
  rw [truncate_eq]
  have h2 : (1 : ℚ) ≤ (⌊x / 10⌋ : ℚ) := by exact_mod_cast h1
  push_cast
  linarith

theorem advanceIndex_lt {ts : List (ℚ × String)} (hts : ts ≠ []) (t : ℚ) {i : ℕ} (hi : i < ts.length) :
    advanceIndex ts t i - 1 < ts.length := by
  unfold advanceIndex
  have h1 := (List.takeWhile_sublist (p := fun x : ℚ × String => decide (x.1 ≤ t)) (l := ts.drop i)).length_le
  rw [List.length_drop] at h1
  have := List.length_pos_iff.2 hts
  omega

theorem soundAutos_addAll {rb : RotationBuilder} (h : SoundAutos P gauges rb) (as : List NewEvent) :
    SoundAutos P gauges (rb.addAll as) :=
  ⟨⟨h.speed, h.whole, h.agree, h.settings, h.breakers, h.start, h.timed, h.seq⟩, h.plain, h.channels, h.names,
    h.downtime⟩

theorem autosLoop_total {skill : Skill} (hP : P skill.toSkillCore) (hA : Harmless gauges {} skill.toSkillCore) {delay last w : ℚ}
    {ts : List (ℚ × String)} (hts : ts ≠ []) {b d : List (String × ℚ)}
    (hb : Faster P SkillCore.getBuffSpec b) (hd : Faster P SkillCore.getDebuffSpec d)
    (hw : 0 ≤ w) (hpace : 10 ≤ w * leftOf b * leftOf d) (n : ℕ) {rb : RotationBuilder}
    (h : SoundAutos P gauges rb) (hok : rb.events.Ok) 
    (he : ∀ e ∈ rb.events.q, P e.skill.toSkillCore ∧ Harmless gauges e.modifier e.skill.toSkillCore)
    {snapshot : WithTop ℚ} (hn : ∀ t : ℚ, snapshot = t → last - (t + delay) ≤ 10 * n) {i : ℕ}
    (hi : i < ts.length) :
    ∃ rb', autosLoop skill delay ts last w (n + 1) rb snapshot i = .ok rb' := by
  induction n generalizing rb snapshot i with
  | zero =>
    unfold autosLoop
    cases snapshot with
    | top => exact ⟨_, rfl⟩
    | coe t =>
      have := hn t rfl
      simp only
      rw [if_neg (by push_cast at this; linarith)]
      exact ⟨_, rfl⟩
  | succ n ih =>
    unfold autosLoop
    cases snapshot with
    | top => exact ⟨_, rfl⟩
    | coe t =>
      simp only
      by_cases hlt : t + delay < last
      · rw [if_pos hlt]
        have hlt' := advanceIndex_lt hts t hi
        rw [Heapq.pyIdx_lt hlt']
        simp only [addEvent_eq_addAll, Py.ok_bind]
        generalize hr : rb.addAll [autoEvent skill t delay (ts[advanceIndex ts t i - 1]).2] = rb1
        have h1 : SoundAutos P gauges rb1 := by
          rw [← hr]
          exact soundAutos_addAll h _
        obtain ⟨hok', es, hes, hperm⟩ := pushes_spec
          [autoEvent skill t delay (ts[advanceIndex ts t i - 1]).2] rb.events hok
        have he1 : ∀ e ∈ rb1.events.q, P e.skill.toSkillCore ∧
            Harmless gauges e.modifier e.skill.toSkillCore := by
          intro e hee
          rw [← hr] at hee
          have hee : e ∈ ([autoEvent skill t delay (ts[advanceIndex ts t i - 1]).2].foldl Events.push
            rb.events).q := hee
          rcases List.mem_append.1 (hperm.mem_iff.1 hee) with h2 | h2
          rotate_left
          · exact he e h2
          · obtain ⟨a, ha, hbec⟩ := forall₂_mem_right' (eventsOf_forall₂ hes) h2
            rw [List.mem_singleton] at ha
            subst ha
            rw [hbec.2.2.1, hbec.2.2.2.1]
            exact ⟨hP, hA⟩
        obtain ⟨tl, h2, h3⟩ := speedTimeline_total he1
        obtain ⟨r, h4, h5, h6⟩ := applicable_total h1 hb hd h3 t skill [rb1.defaultTarget]
        obtain ⟨ps, h7⟩ := periods_total h1
        have hstep : (10 : ℚ) ≤ (Utils.truncateToDigit
            (w * r.1.autoAttackDelayMult * r.2.autoAttackDelayMult) 2 : ℚ) := by
          refine truncate_ten (hpace.trans ?_)
          have g1 := leftOf_nonneg hb.1
          have g2 := leftOf_nonneg hd.1
          exact mul_le_mul (mul_le_mul_of_nonneg_left h5 hw) h6 g2 (mul_nonneg hw (g1.trans h5))
        obtain ⟨t', h8, h9⟩ := next_total h1.downtime (t + (Utils.truncateToDigit
            (w * r.1.autoAttackDelayMult * r.2.autoAttackDelayMult) 2 : ℚ)) ps
            (ts[advanceIndex ts t i - 1]).2
        simp only [h2, h4, h7, h8, Py.ok_bind]
        refine ih h1 (by rw [← hr]; exact hok') he1 ?_ hlt'
        intro t2 ht2
        rw [ht2] at h9
        have h9 := WithTop.coe_le_coe.1 h9
        have := hn t rfl
        push_cast at this
        linarith
      · rw [if_neg hlt]
        exact ⟨_, rfl⟩

theorem autosLoop_mono {skill : Skill} {delay last w : ℚ} {ts : List (ℚ × String)} {n n' : ℕ} (hn : n ≤ n')
    {rb rb' : RotationBuilder} {snapshot : WithTop ℚ} {i : ℕ}
    (h : autosLoop skill delay ts last w n rb snapshot i = .ok rb') :
    autosLoop skill delay ts last w n' rb snapshot i = .ok rb' := by
  induction n generalizing n' rb snapshot i with
  | zero => cases h
  | succ n ih =>
    obtain ⟨n', rfl⟩ : ∃ k, n' = k + 1 := ⟨n' - 1, by omega⟩
    unfold autosLoop at h ⊢
    cases snapshot with
    | top => exact h
    | coe t =>
      simp only at h ⊢
      split_ifs at h ⊢
      · obtain ⟨x, h1, h⟩ := Py.bind_eq_ok.1 h
        rw [h1, Py.ok_bind]
        obtain ⟨rb1, h2, h⟩ := Py.bind_eq_ok.1 h
        simp only [h2, Py.ok_bind]
        obtain ⟨tl, h3, h⟩ := Py.bind_eq_ok.1 h
        simp only [h3, Py.ok_bind]
        obtain ⟨r, h4, h⟩ := Py.bind_eq_ok.1 h
        simp only [h4, Py.ok_bind]
        obtain ⟨ps, h5, h⟩ := Py.bind_eq_ok.1 h
        simp only [h5, Py.ok_bind]
        obtain ⟨nx, h6, h⟩ := Py.bind_eq_ok.1 h
        simp only [h6, Py.ok_bind]
        exact ih (by omega) h
      · exact h

/-- More fuel does not change a timeline. -/
theorem getSkillTiming_mono {rb rb' : RotationBuilder} {n n' : ℕ} (hn : n ≤ n')
    (h : rb.getSkillTiming n = .ok rb') : rb.getSkillTiming n' = .ok rb' := by
  rw [getSkillTiming_eq] at h ⊢
  obtain ⟨l, h1, h⟩ := Py.bind_eq_ok.1 h
  rw [h1, Py.ok_bind]
  obtain ⟨as, h2, h⟩ := Py.bind_eq_ok.1 h
  rw [h2, Py.ok_bind]
  simp only at h ⊢
  split_ifs at h ⊢ with hae
  · obtain ⟨r, h3, h⟩ := Py.bind_eq_ok.1 h
    have h4 : ((rb.start.apply l).addAll as).addAutos n' (rb.start.apply l).lastFor = .ok r := by
      unfold addAutos at h3 ⊢
      obtain ⟨ts, g1, h3⟩ := Py.bind_eq_ok.1 h3
      rw [g1, Py.ok_bind]
      obtain ⟨skill, g2, h3⟩ := Py.bind_eq_ok.1 h3
      simp only [g2, Py.ok_bind]
      obtain ⟨first, g3, h3⟩ := Py.bind_eq_ok.1 h3
      simp only [g3, Py.ok_bind]
      cases first with
      | none => cases h3
      | some first =>
        simp only at h3 ⊢
        obtain ⟨delay, g4, h3⟩ := Py.bind_eq_ok.1 h3
        rw [g4, Py.ok_bind]
        split at h3
        · cases h3
        · exact autosLoop_mono hn h3
    rw [h4]
    exact h
  · exact h

/-! ## Whole rotations -/

theorem addAutos_total {rb : RotationBuilder} (h : SoundAutos P gauges rb) {as : List NewEvent}
    (hev : rb.events = as.foldl Events.push {}) 
    (ha : ∀ a ∈ as, P a.skill.toSkillCore ∧ Harmless gauges a.modifier a.skill.toSkillCore)
    {skill : Skill} {delay : ℚ} (hs : AutoSkill rb skill delay) (hP : P skill.toSkillCore)
    (hA : Harmless gauges {} skill.toSkillCore)
    (hts : rb.timestamps ≠ []) (hhurt : ∃ a ∈ as, ∃ x, a.skill.getDamageSpec a.modifier = .ok (some x))
    {b d : List (String × ℚ)} (hb : Faster P SkillCore.getBuffSpec b)
    (hd : Faster P SkillCore.getDebuffSpec d)
    (hpace : 10 ≤ (pyInt (1000 * rb.stats.weaponDelay) : ℚ) *
      (1 - rb.stats.processed.traitAutoAttackDelayReduction) * leftOf b * leftOf d) (last : Option ℚ) :
    ∃ n rb', rb.addAutos n last = .ok rb' := by
  obtain ⟨g1, g2⟩ := autoSkill_of hs
  have hok : rb.events.Ok := by
    rw [hev]
    exact (pushes_empty as).1
  have hq : ∀ e ∈ rb.events.q, P e.skill.toSkillCore ∧ Harmless gauges e.modifier e.skill.toSkillCore := by
    intro e he
    rw [hev] at he
    obtain ⟨a, h1, h2⟩ := mem_pushes he
    rw [h2.2.2.1, h2.2.2.2.1]
    exact ha a h1
  have hdam : ∀ e ∈ rb.events.q, ∃ s, e.skill.getDamageSpec e.modifier = .ok s := fun e he =>
    (hq e he).2.damage _ (Finset.Subset.refl _)
  obtain ⟨a, ha1, x, hx⟩ := hhurt
  obtain ⟨e, hee, hbec⟩ : ∃ e ∈ rb.events.q, NewEvent.Becomes a e := by
    rw [hev]
    exact mem_pushes_of ha1
  obtain ⟨first, h1, h2, h3⟩ := firstDamage_fold rb.events.q none hdam
  have h1 : rb.events.getFirstDamageTime = .ok first := h1
  cases first with
  | none =>
    have := (h2.1 rfl).2 e hee
    rw [hbec.2.2.1, hbec.2.2.2.1, hx] at this
    cases this
  | some first =>
    obtain ⟨lst, hlst⟩ : ∃ l, last = some l ∨ (last = none ∧ rb.events.getLastEventTime = some l) := by
      cases last with
      | some l => exact ⟨l, .inl rfl⟩
      | none =>
        rcases lastEvent_spec rb.events with ⟨-, h4⟩ | ⟨l, h4, -⟩
        · rw [h4] at hee
          simp at hee
        · exact ⟨l, .inr ⟨rfl, h4⟩⟩
    obtain ⟨ts, hts1, hts2⟩ : ∃ ts, shortenSequence (sortBy (·.1) rb.timestamps) = .ok ts ∧ ts ≠ [] := by
      cases hsrt : sortBy (fun x : ℚ × String => x.1) rb.timestamps with
      | nil =>
        have := (sortBy_perm (fun x : ℚ × String => x.1) rb.timestamps).length_eq
        rw [hsrt] at this
        exact absurd (List.length_eq_zero_iff.1 this.symm) hts
      | cons y ys => exact ⟨_, rfl, by simp⟩
    have hw : 0 ≤ (pyInt (1000 * rb.stats.weaponDelay) : ℚ) *
        (1 - rb.stats.processed.traitAutoAttackDelayReduction) := by
      by_contra hneg
      push Not at hneg
      have g1 := leftOf_nonneg hb.1
      have g2 := leftOf_nonneg hd.1
      have := mul_nonneg g1 g2
      nlinarith
    obtain ⟨rb', hrb⟩ := autosLoop_total (P := P) (gauges := gauges) hP hA hts2 hb hd hw hpace
      ⌈(lst - (first + delay)) / 10⌉₊ h hok hq (snapshot := (first : WithTop ℚ)) (by
        intro t ht
        rw [← WithTop.coe_injective ht]
        have := Nat.le_ceil ((lst - (first + delay)) / 10)
        linarith) (List.length_pos_iff.2 hts2) (last := lst) (delay := delay)
    refine ⟨⌈(lst - (first + delay)) / 10⌉₊ + 1, rb', ?_⟩
    unfold addAutos
    simp only [hts1, Py.ok_bind, g1, h1, g2]
    rcases hlst with rfl | ⟨rfl, hlst⟩
    · exact hrb
    · simp only [hlst]
      exact hrb

/-- What the events of a timeline bring can be looked up. -/
theorem origin_harmless {rb : RotationBuilder} {P : SkillCore → Prop} (h : Sound P gauges rb)
    (ha : rb.enableAutos = true → ∃ skill delay, AutoSkill rb skill delay ∧
      Harmless gauges {} skill.toSkillCore) {skill : Skill} {m : SkillModifier} (ho : Origin rb skill m) :
    Harmless gauges m skill.toSkillCore := by
  have hpl : ∀ skill m job, Asked rb skill m job → Playable gauges m skill := by
    rintro skill m job (⟨p, hp, rfl, rfl, -⟩ | ⟨p, hp, rfl, rfl, -⟩)
    · exact (h.timed p hp).playable
    · exact (h.seq p hp).playable
  cases ho with
  | press m₀ job h1 h2 => exact (hpl _ _ _ h1).harmless.mono h2.2
  | followUp f h1 h2 h3 =>
    obtain ⟨parent, m₀, job, m', fs, g1, g2, g3, g4⟩ := h1
    obtain ⟨fs', g5, g6⟩ := (hpl _ _ _ g1).followUps m' g2
    cases g5.symm.trans g3
    rw [h2, h3]
    exact g6 f g4
  | auto delay h1 h2 h3 =>
    obtain ⟨skill', delay', g1, g2⟩ := ha h1
    cases (autoSkill_of g1).1.symm.trans (autoSkill_of h2).1
    rw [h3]
    exact g2

theorem getSkillTiming_total {rb : RotationBuilder} (hb : Built rb) (h : PlayableRotation rb) :
    ∃ n rb', rb.getSkillTiming n = .ok rb' := by
  obtain ⟨e1, e2, e3, e4, e5, e6, e7, e8, e9, e10, e11, e12, e13, e14, e15⟩ := start_fields rb
  obtain ⟨gauges, hs, hau⟩ := sound_of hb h
  have hdots : DotsOk rb.qDot := by
    obtain ⟨stats, lib, sd, a, t, fs, dt, tg, rb0, ops, h0, h1⟩ := hb
    exact dots_built h0 ops rb h1 hs
  obtain ⟨l, as, hl, has, hev⟩ := collected_total hs hdots h.names
  have horigin := collected_origin hb hl has
  have hevents : ((rb.start.apply l).addAll as).events = (l.adds ++ as).foldl Events.push {} := by
    change as.foldl Events.push (l.adds.foldl Events.push rb.start.events) = _
    rw [e14, List.foldl_append]
  cases hae : rb.enableAutos with
  | false =>
    refine ⟨0, ?_⟩
    rw [getSkillTiming_eq, hl, Py.ok_bind, has]
    simp only [Py.ok_bind, hae, Bool.false_eq_true, if_false, Py.pure_eq]
    exact finish_total (start_downtime rb) hevents hev
  | true =>
    obtain ⟨⟨skill, delay, hsk, hA, -⟩, hplain, hch, ⟨hskill, hm, hjob, hask, hhurt⟩, b, d, hfb, hfd, hpace⟩ := hau hae
    have hs1 := sound_start hs
    have hctx : SoundAutos (InPlay rb) gauges ((rb.start.apply l).addAll as) :=
      ⟨⟨hs1.speed, hs1.whole, hs1.agree, hs1.settings, hs1.breakers, hs1.start, hs1.timed, hs1.seq⟩, hplain,
        by
          change ∀ p ∈ rb.start.qTimed, _
          rw [e10]
          exact hch,
        by
          change ∀ p ∈ rb.start.qTimed, ∀ q ∈ rb.start.qTimed, _
          rw [e10]
          exact h.names, start_downtime rb⟩
    have hsk' : AutoSkill ((rb.start.apply l).addAll as) skill delay := by
      change AutoSkill rb.start skill delay
      unfold AutoSkill
      rw [e1, e2]
      exact hsk
    obtain ⟨u, hu1, hu2, hu3, hu4⟩ : ∃ u : Use, u.mainEvent ∈ l.adds ∧ u.skill = hskill ∧
        hm.withCondition ⊆ u.modifier.withCondition ∧ (u.t, u.targets.headD "") ∈ l.stamps := by
      obtain ⟨su, tu, order, rfl, k2, k3, k4, -⟩ := queueLog_spec hl
      have hin : ∃ u ∈ su ++ tu, u.Valid rb.start.stats ∧ u.skill = hskill ∧ u.asked = hm := by
        rcases hask with ⟨p, hp, rfl, rfl, -⟩ | ⟨p, hp, rfl, rfl, -⟩
        · rw [← e10] at hp
          obtain ⟨u, hu, hv, -, q1, q2, -⟩ := forall₂_mem_of_left k3 (k4.mem_iff.2 hp)
          exact ⟨u, List.mem_append_right _ hu, hv, q1, q2⟩
        · rw [← e11] at hp
          obtain ⟨u, hu, hv, q1, q2, -⟩ := forall₂_mem_of_left k2 hp
          exact ⟨u, List.mem_append_left _ hu, hv, q1, q2⟩
      obtain ⟨u, hu, hv, q1, rfl⟩ := hin
      refine ⟨u, ?_, q1, hv.conds, ?_⟩
      · rw [logsOf_adds]
        exact List.mem_flatMap.2 ⟨u, hu, by simp⟩
      · rw [logsOf_stamps]
        exact List.mem_map.2 ⟨u, hu, rfl⟩
    have hstamps : ((rb.start.apply l).addAll as).timestamps ≠ [] := by
      change rb.start.timestamps ++ l.stamps ≠ []
      intro hnil
      rw [(List.append_eq_nil_iff.1 hnil).2] at hu4
      simp at hu4
    obtain ⟨n, rb1, hrb1⟩ := addAutos_total hctx hevents (fun a ha => ⟨(horigin a ha).inPlay,
        origin_harmless hs (fun _ => ⟨skill, delay, hsk, hA⟩) (horigin a ha)⟩) hsk'
      (.inr ⟨hae, skill, delay, hsk, rfl⟩) hA hstamps
      ⟨_, List.mem_append_left _ hu1, by
        obtain ⟨x, hx⟩ := hhurt _ hu3
        exact ⟨x, by rw [← hu2] at hx; exact hx⟩⟩ hfb hfd (by
          change 10 ≤ (pyInt (1000 * rb.start.stats.weaponDelay) : ℚ) *
            (1 - rb.start.stats.processed.traitAutoAttackDelayReduction) * leftOf b * leftOf d
          rw [e1]
          exact hpace) (rb.start.apply l).lastFor
    refine ⟨n, ?_⟩
    rw [getSkillTiming_eq, hl, Py.ok_bind, has]
    simp only [Py.ok_bind, hae, if_true, hrb1]
    obtain ⟨sk, dl, autos, k1, k2, rfl, -⟩ := addAutos_adds hrb1
    have := (autoSkill_of hsk').1.symm.trans k1
    cases this
    refine finish_total (as := (l.adds ++ as) ++ autos.map (fun x => autoEvent skill x.1 dl x.2))
      (start_downtime rb) ?_ ?_
    · change (autos.map (fun x => autoEvent skill x.1 dl x.2)).foldl Events.push
        ((rb.start.apply l).addAll as).events = _
      rw [hevents, ← List.foldl_append]
    · intro a ha
      rcases List.mem_append.1 ha with ha | ha
      · exact hev a ha
      · obtain ⟨x, hx, rfl⟩ := List.mem_map.1 ha
        exact hA.damage {} (Finset.Subset.refl _)

theorem timing_total {rb : RotationBuilder} (hb : Built rb) (h : PlayableRotation rb) :
    ∃ n rb', ∀ fuel, n ≤ fuel → rb.getSkillTiming fuel = .ok rb' := by
  obtain ⟨n, rb', h1⟩ := getSkillTiming_total hb h
  exact ⟨n, rb', fun fuel hf => getSkillTiming_mono hf h1⟩

end RotationBuilder

end Ama
