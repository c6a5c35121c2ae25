import Verif.Lemmas.StatusEffects

namespace Ama

open Spec StatusEffectTracker

/-! ## Frame lemmas: what the operations do to one slot -/

theorem get?_expireEffects {es : Effects} (hn : (Dict.keys es).Nodup) (t : ℚ) (name : String) :
    Dict.get? (expireEffects t es) name =
      match Dict.get? es name with
      | some e => if (t : WithTop ℚ) ≤ e.endT ∧ e.uses ≠ 0 then some e else none
      | none => none := by
  unfold expireEffects
  rw [get?_filter hn]
  cases Dict.get? es name with
  | none => rfl
  | some e =>
    simp only [gt_iff_lt, Bool.not_eq_true', Bool.or_eq_false_iff, decide_eq_false_iff_not, not_lt]

theorem get?_addEffect_ne {es : Effects} {t : ℚ} {n name : String} {s : StatusEffectSpec}
    (h : n ≠ name) : Dict.get? (addEffect es t n s) name = Dict.get? es name := by
  unfold addEffect
  split
  · split_ifs
    · rfl
    · exact Dict.get?_set_ne _ _ h
  · exact Dict.get?_set_ne _ _ h

theorem get?_endEffect_ne {es : Effects} {t : ℚ} {n name : String}
    (h : n ≠ name) : Dict.get? (endEffect es n t) name = Dict.get? es name := by
  unfold endEffect
  split
  · rfl
  · exact Dict.get?_set_ne _ _ h

theorem get?_endEffect_self {es : Effects} {t : ℚ} {name : String} :
    Dict.get? (endEffect es name t) name =
      (Dict.get? es name).map (fun e => { e with endT := (t : WithTop ℚ) }) := by
  unfold endEffect
  split
  · next h => rw [h]; rfl
  · next e h => rw [Dict.get?_set_self, h]; rfl

theorem lookupDebuffs_setDebuffs (tr : StatusEffectTracker) (a b : String) (es : Effects) :
    (tr.setDebuffs a es).lookupDebuffs b = if a = b then es else tr.lookupDebuffs b := by
  unfold lookupDebuffs setDebuffs
  simp only [Dict.get?_set]
  split_ifs <;> rfl

theorem effects_expire (tr : StatusEffectTracker) (t : ℚ) (slot : Slot) :
    slot.effects (tr.expire t) = expireEffects t (slot.effects tr) := by
  cases slot with
  | buffs => rfl
  | debuffs target =>
    simp only [Slot.effects, lookupDebuffs, expire, get?_map_val]
    cases Dict.get? tr.debuffs target <;> rfl

theorem effects_expireNamed (tr : StatusEffectTracker) (n : String) (t : ℚ) (target : String)
    (slot : Slot) :
    slot.effects (tr.expireNamed n t target) =
      if slot = .buffs ∨ slot = .debuffs target then endEffect (slot.effects tr) n t
      else slot.effects tr := by
  cases slot with
  | buffs => simp [Slot.effects, expireNamed, setDebuffs]
  | debuffs tg =>
    simp only [Slot.effects, expireNamed, lookupDebuffs_setDebuffs]
    by_cases h : target = tg
    · subst h
      simp [lookupDebuffs]
    · have : ¬ tg = target := fun h' => h h'.symm
      simp [h, this, lookupDebuffs]

theorem priority_expireNamed (tr : StatusEffectTracker) (n : String) (t : ℚ) (target : String) :
    (tr.expireNamed n t target).priority = tr.priority := rfl

theorem priority_foldl_expireNamed (tr : StatusEffectTracker) (l : List String) (t : ℚ)
    (target : String) :
    (l.foldl (fun tr n => expireNamed tr n t target) tr).priority = tr.priority := by
  induction l generalizing tr with
  | nil => rfl
  | cons a l ih => simp only [List.foldl_cons, ih, priority_expireNamed]

theorem get?_foldl_expireNamed (tr : StatusEffectTracker) (l : List String) (t : ℚ) (target : String)
    (slot : Slot) (name : String) :
    Dict.get? (slot.effects (l.foldl (fun tr n => expireNamed tr n t target) tr)) name =
      if (slot = .buffs ∨ slot = .debuffs target) ∧ name ∈ l then
        (Dict.get? (slot.effects tr) name).map (fun e => { e with endT := (t : WithTop ℚ) })
      else Dict.get? (slot.effects tr) name := by
  induction l generalizing tr with
  | nil => simp
  | cons a l ih =>
    simp only [List.foldl_cons, ih, effects_expireNamed, List.mem_cons]
    by_cases hs : slot = .buffs ∨ slot = .debuffs target
    · simp only [hs, true_and, if_true]
      by_cases ha : name = a
      · subst ha
        simp only [true_or, if_true, get?_endEffect_self]
        by_cases hl : name ∈ l
        · simp only [hl, if_true]
          cases Dict.get? (slot.effects tr) name <;> rfl
        · simp [hl]
      · simp only [ha, false_or, get?_endEffect_ne (Ne.symm ha)]
    · simp [hs]

theorem foldl_expireNamed_other (tr : StatusEffectTracker) (l : List String) (t : ℚ) (target : String)
    (slot : Slot) (h : ¬ (slot = .buffs ∨ slot = .debuffs target)) :
    slot.effects (l.foldl (fun tr n => expireNamed tr n t target) tr) = slot.effects tr := by
  induction l generalizing tr with
  | nil => rfl
  | cons a l ih => simp only [List.foldl_cons, ih, effects_expireNamed, if_neg h]

/-- The effect of the buff part of `add` on the buffs. -/
theorem get?_addBuff_buffs (tr : StatusEffectTracker) (t : ℚ) (n : String) (s : StatusEffectSpec)
    (name : String) :
    Dict.get? (tr.addBuff t n s).buffs name =
      (let r := Dict.get? (addEffect (if s.clearAllStatusEffects then [] else tr.buffs) t n s) name
       if name ∈ s.expiresStatusEffects then r.map (fun e => { e with endT := (t : WithTop ℚ) })
       else r) := by
  have := get?_foldl_expireNamed
    { (if s.clearAllStatusEffects then { tr with buffs := [] } else tr) with
      buffs := addEffect (if s.clearAllStatusEffects then { tr with buffs := [] } else tr).buffs t n s }
    s.expiresStatusEffects t SimConsts.DEFAULT_TARGET .buffs name
  simp only [true_or, true_and, Slot.effects] at this
  unfold addBuff
  simp only
  refine Eq.trans this ?_
  cases s.clearAllStatusEffects <;> rfl

theorem get?_addBuff_debuffs (tr : StatusEffectTracker) (t : ℚ) (n : String) (s : StatusEffectSpec)
    (target name : String) :
    Dict.get? ((tr.addBuff t n s).lookupDebuffs target) name =
      if target = SimConsts.DEFAULT_TARGET ∧ name ∈ s.expiresStatusEffects then
        (Dict.get? (tr.lookupDebuffs target) name).map (fun e => { e with endT := (t : WithTop ℚ) })
      else Dict.get? (tr.lookupDebuffs target) name := by
  have := get?_foldl_expireNamed
    { (if s.clearAllStatusEffects then { tr with buffs := [] } else tr) with
      buffs := addEffect (if s.clearAllStatusEffects then { tr with buffs := [] } else tr).buffs t n s }
    s.expiresStatusEffects t SimConsts.DEFAULT_TARGET (.debuffs target) name
  simp only [Slot.effects, reduceCtorEq, false_or, Slot.debuffs.injEq] at this
  unfold addBuff
  simp only
  refine Eq.trans this ?_
  cases s.clearAllStatusEffects <;> rfl

theorem addBuff_debuffs_other (tr : StatusEffectTracker) (t : ℚ) (n : String) (s : StatusEffectSpec)
    (target : String) (h : target ≠ SimConsts.DEFAULT_TARGET) :
    (tr.addBuff t n s).lookupDebuffs target = tr.lookupDebuffs target := by
  have := foldl_expireNamed_other
    { (if s.clearAllStatusEffects then { tr with buffs := [] } else tr) with
      buffs := addEffect (if s.clearAllStatusEffects then { tr with buffs := [] } else tr).buffs t n s }
    s.expiresStatusEffects t SimConsts.DEFAULT_TARGET (.debuffs target) (by simpa using h)
  simp only [Slot.effects] at this
  unfold addBuff
  simp only
  refine Eq.trans this ?_
  cases s.clearAllStatusEffects <;> rfl

theorem get?_addDebuff_buffs (tr : StatusEffectTracker) (t : ℚ) (n : String) (s : StatusEffectSpec)
    (target name : String) :
    Dict.get? (tr.addDebuff t n s target).buffs name =
      if name ∈ s.expiresStatusEffects then
        (Dict.get? tr.buffs name).map (fun e => { e with endT := (t : WithTop ℚ) })
      else Dict.get? tr.buffs name := by
  have := get?_foldl_expireNamed
    (tr.setDebuffs target (addEffect (tr.lookupDebuffs target) t n s))
    s.expiresStatusEffects t target .buffs name
  simp only [true_or, true_and, Slot.effects] at this
  exact this

theorem get?_addDebuff_same (tr : StatusEffectTracker) (t : ℚ) (n : String) (s : StatusEffectSpec)
    (target name : String) :
    Dict.get? ((tr.addDebuff t n s target).lookupDebuffs target) name =
      (let r := Dict.get? (addEffect (tr.lookupDebuffs target) t n s) name
       if name ∈ s.expiresStatusEffects then r.map (fun e => { e with endT := (t : WithTop ℚ) })
       else r) := by
  have := get?_foldl_expireNamed
    (tr.setDebuffs target (addEffect (tr.lookupDebuffs target) t n s))
    s.expiresStatusEffects t target (.debuffs target) name
  simp only [or_true, true_and, Slot.effects, lookupDebuffs_setDebuffs, if_true] at this
  exact this

theorem addDebuff_other (tr : StatusEffectTracker) (t : ℚ) (n : String) (s : StatusEffectSpec)
    (target other : String) (h : other ≠ target) :
    (tr.addDebuff t n s target).lookupDebuffs other = tr.lookupDebuffs other := by
  have := foldl_expireNamed_other
    (tr.setDebuffs target (addEffect (tr.lookupDebuffs target) t n s))
    s.expiresStatusEffects t target (.debuffs other) (by simpa using h)
  simp only [Slot.effects, lookupDebuffs_setDebuffs, if_neg (Ne.symm h)] at this
  exact this

theorem foldl_addDebuff_other (tr : StatusEffectTracker) (t : ℚ) (n : String) (s : StatusEffectSpec)
    (targets : List String) (other : String) (h : other ∉ targets) :
    (targets.foldl (fun tr target => tr.addDebuff t n s target) tr).lookupDebuffs other =
      tr.lookupDebuffs other := by
  induction targets generalizing tr with
  | nil => rfl
  | cons a l ih =>
    simp only [List.mem_cons, not_or] at h
    simp only [List.foldl_cons]
    rw [ih _ h.2, addDebuff_other _ _ _ _ _ _ h.1]

theorem get?_foldl_addDebuff_buffs (tr : StatusEffectTracker) (t : ℚ) (n : String)
    (s : StatusEffectSpec) (targets : List String) (name : String)
    (h : name ∉ s.expiresStatusEffects) :
    Dict.get? (targets.foldl (fun tr target => tr.addDebuff t n s target) tr).buffs name =
      Dict.get? tr.buffs name := by
  induction targets generalizing tr with
  | nil => rfl
  | cons a l ih =>
    simp only [List.foldl_cons]
    rw [ih, get?_addDebuff_buffs, if_neg h]

theorem get?_foldl_addDebuff_leaves (tr : StatusEffectTracker) (t : ℚ) (n : String)
    (s : StatusEffectSpec) (targets : List String) (target name : String)
    (h : target ∈ targets → n ≠ name ∧ name ∉ s.expiresStatusEffects) :
    Dict.get? ((targets.foldl (fun tr target => tr.addDebuff t n s target) tr).lookupDebuffs target)
      name = Dict.get? (tr.lookupDebuffs target) name := by
  by_cases hm : target ∈ targets
  · obtain ⟨h1, h2⟩ := h hm
    clear h hm
    induction targets generalizing tr with
    | nil => rfl
    | cons a l ih =>
      simp only [List.foldl_cons]
      rw [ih]
      by_cases ha : target = a
      · subst ha
        rw [get?_addDebuff_same, if_neg h2, get?_addEffect_ne h1]
      · rw [addDebuff_other _ _ _ _ _ _ ha]
  · rw [foldl_addDebuff_other _ _ _ _ _ _ hm]

theorem priority_addBuff (tr : StatusEffectTracker) (t : ℚ) (n : String) (s : StatusEffectSpec) :
    (tr.addBuff t n s).priority = tr.priority := by
  unfold addBuff
  simp only [priority_foldl_expireNamed]
  split_ifs <;> rfl

theorem priority_addDebuff (tr : StatusEffectTracker) (t : ℚ) (n : String) (s : StatusEffectSpec)
    (target : String) : (tr.addDebuff t n s target).priority = tr.priority := by
  unfold addDebuff
  simp only [priority_foldl_expireNamed]
  rfl

theorem priority_foldl_addDebuff (tr : StatusEffectTracker) (t : ℚ) (n : String)
    (s : StatusEffectSpec) (targets : List String) :
    (targets.foldl (fun tr target => tr.addDebuff t n s target) tr).priority = tr.priority := by
  induction targets generalizing tr with
  | nil => rfl
  | cons a l ih => simp only [List.foldl_cons, ih, priority_addDebuff]

theorem priority_add {tr tr' : StatusEffectTracker} {t : ℚ} {skill : SkillCore} {m : SkillModifier}
    {targets : List String} (ha : tr.add t skill m targets = .ok tr') :
    tr'.priority = tr.priority := by
  obtain ⟨b, d, hb, hd, rfl⟩ := add_ok ha
  cases b <;> cases d <;>
    simp [applyBuff, applyDebuff, priority_foldl_addDebuff, priority_addBuff]

theorem get?_add_leaves {tr tr' : StatusEffectTracker} {t : ℚ} {skill : SkillCore} {m : SkillModifier}
    {targets : List String} (ha : tr.add t skill m targets = .ok tr') {slot : Slot} {name : String}
    (hl : Leaves slot name (.add t skill m targets)) :
    Dict.get? (slot.effects tr') name = Dict.get? (slot.effects tr) name := by
  obtain ⟨b, d, hb, hd, rfl⟩ := add_ok ha
  obtain ⟨hlb, hld⟩ := hl
  have h1 : Dict.get? (slot.effects (applyBuff tr t skill.name b)) name = Dict.get? (slot.effects tr) name := by
    cases b with
    | none => rfl
    | some s =>
      have := hlb s hb
      cases slot with
      | buffs =>
        obtain ⟨h1, h2, h3⟩ := this
        simp only [Slot.effects, applyBuff]
        rw [get?_addBuff_buffs, if_neg h3]
        simp only [h2]
        exact get?_addEffect_ne h1
      | debuffs tg =>
        simp only [Slot.effects, applyBuff]
        rw [get?_addBuff_debuffs, if_neg]
        rintro ⟨h1, h2⟩
        exact this h1 h2
  rw [← h1]
  generalize applyBuff tr t skill.name b = tr1
  cases d with
  | none => rfl
  | some s =>
    have := hld s hd
    cases slot with
    | buffs => exact get?_foldl_addDebuff_buffs _ _ _ _ _ _ this
    | debuffs tg => exact get?_foldl_addDebuff_leaves _ _ _ _ _ _ _ this

/-- What compiling a slot does. -/
theorem compile_spec {tr : StatusEffectTracker} (hwf : WellFormed tr) {t : ℚ} {skill : SkillCore}
    {slot : Slot} {agg : StatusEffects} {cond : String} {tr' : StatusEffectTracker}
    (h : slot.compile tr t skill = .ok ((agg, cond), tr')) :
    (∀ n, n ∈ agg.statusEffects ↔ Valid (slot.effects tr) t skill n ∧
      ¬ Outranked tr.priority (Valid (slot.effects tr) t skill) n) ∧
    (∀ n, Dict.get? (slot.effects tr') n = if n ∈ agg.statusEffects
        then (Dict.get? (slot.effects tr) n).map ActiveEffect.used
        else Dict.get? (slot.effects tr) n) ∧
    (∀ other, other ≠ slot → other.effects tr' = other.effects tr) ∧
    WellFormed tr' ∧ tr'.priority = tr.priority := by
  cases slot with
  | buffs =>
    simp only [Slot.compile, compileBuffs] at h
    obtain ⟨⟨a, c, es⟩, hc, h⟩ := Py.bind_eq_ok.1 h
    simp only [Py.pure_eq, Except.ok.injEq, Prod.mk.injEq] at h
    obtain ⟨⟨rfl, rfl⟩, rfl⟩ := h
    obtain ⟨_, _, _, _, hagg, _, hk, hg⟩ := compileEffects_spec hwf.1 hc
    have hs : a.statusEffects =
        contribNames tr.priority t tr.buffs skill.statusEffectDenylist skill.name := by
      rw [hagg]
    refine ⟨?_, ?_, ?_, ?_, rfl⟩
    · intro n
      rw [hs]
      exact mem_contribNames hwf.1
    · intro n
      rw [hs]
      exact hg n
    · intro other ho
      cases other with
      | buffs => exact absurd rfl ho
      | debuffs tg => rfl
    · refine ⟨?_, hwf.2⟩
      change (Dict.keys es).Nodup
      rw [hk]
      exact hwf.1
  | debuffs target =>
    simp only [Slot.compile, compileDebuffs] at h
    obtain ⟨⟨a, c, es⟩, hc, h⟩ := Py.bind_eq_ok.1 h
    simp only [Py.pure_eq, Except.ok.injEq, Prod.mk.injEq] at h
    obtain ⟨⟨rfl, rfl⟩, rfl⟩ := h
    have hn := lookupDebuffs_nodup hwf target
    obtain ⟨_, _, _, _, hagg, _, hk, hg⟩ := compileEffects_spec hn hc
    have hs : a.statusEffects = contribNames tr.priority t (tr.lookupDebuffs target)
        skill.statusEffectDenylist skill.name := by
      rw [hagg]
    refine ⟨?_, ?_, ?_, ?_, rfl⟩
    · intro n
      rw [hs]
      exact mem_contribNames hn
    · intro n
      simp only [Slot.effects, lookupDebuffs_setDebuffs, if_true]
      rw [hs]
      exact hg n
    · intro other ho
      cases other with
      | buffs => rfl
      | debuffs tg =>
        simp only [Slot.effects, lookupDebuffs_setDebuffs]
        rw [if_neg]
        rintro rfl
        exact ho rfl
    · apply setDebuffs_wf hwf
      rw [hk]
      exact hn

theorem exec_wf {tr : StatusEffectTracker} (hwf : WellFormed tr) {op : TrackerOp} {out : List String}
    {tr' : StatusEffectTracker} (h : op.exec tr = .ok (out, tr')) :
    WellFormed tr' ∧ tr'.priority = tr.priority := by
  cases op with
  | expire t =>
    simp only [TrackerOp.exec, Except.ok.injEq, Prod.mk.injEq] at h
    obtain ⟨_, rfl⟩ := h
    exact ⟨expire_wf hwf _, rfl⟩
  | add t skill m targets =>
    simp only [TrackerOp.exec] at h
    obtain ⟨r, hr, h⟩ := Py.bind_eq_ok.1 h
    simp only [Py.pure_eq, Except.ok.injEq, Prod.mk.injEq] at h
    obtain ⟨_, rfl⟩ := h
    exact ⟨add_wf hwf hr, priority_add hr⟩
  | buffs t skill =>
    simp only [TrackerOp.exec] at h
    obtain ⟨⟨⟨a, c⟩, r⟩, hr, h⟩ := Py.bind_eq_ok.1 h
    simp only [Py.pure_eq, Except.ok.injEq, Prod.mk.injEq] at h
    obtain ⟨_, rfl⟩ := h
    exact (compile_spec hwf (slot := .buffs) hr).2.2.2
  | debuffs t skill target =>
    simp only [TrackerOp.exec] at h
    obtain ⟨⟨⟨a, c⟩, r⟩, hr, h⟩ := Py.bind_eq_ok.1 h
    simp only [Py.pure_eq, Except.ok.injEq, Prod.mk.injEq] at h
    obtain ⟨_, rfl⟩ := h
    exact (compile_spec hwf (slot := .debuffs target) hr).2.2.2

theorem valid_iff_get? {es : Effects} (hn : (Dict.keys es).Nodup) {t : ℚ} {skill : SkillCore}
    {n : String} :
    Valid es t skill n ↔ ∃ e, Dict.get? es n = some e ∧ e.start ≤ t ∧ Allowed skill n e.spec := by
  unfold Valid
  simp only [mem_iff_get? hn]

theorem effects_nodup {tr : StatusEffectTracker} (hwf : WellFormed tr) (slot : Slot) :
    (Dict.keys (slot.effects tr)).Nodup := by
  cases slot with
  | buffs => exact hwf.1
  | debuffs tg => exact lookupDebuffs_nodup hwf tg

theorem not_outranked {priority : List String} {name : String} (h : name ∉ priority)
    (P : String → Prop) : ¬ Outranked priority P name := by
  rintro ⟨l, p, r, rfl, _, hn⟩
  exact h (by simp [hn])

/-- One operation, seen from one effect. -/
theorem exec_slot {tr : StatusEffectTracker} (hwf : WellFormed tr) {op : TrackerOp} {out : List String}
    {tr' : StatusEffectTracker} (h : op.exec (tr.expire op.time) = .ok (out, tr')) {slot : Slot}
    {name : String} (hp : name ∉ tr.priority) (hl : Leaves slot name op) :
    (Dict.get? (slot.effects (tr.expire op.time)) name = none →
      Dict.get? (slot.effects tr') name = none ∧
      ∀ skill, UsesSlot slot skill op → name ∉ out) ∧
    (∀ e, Dict.get? (slot.effects (tr.expire op.time)) name = some e → e.start ≤ op.time →
      ((∃ skill, UsesSlot slot skill op ∧ Allowed skill name e.spec) ∧
        Dict.get? (slot.effects tr') name = some e.used ∧
        ∀ skill, UsesSlot slot skill op → name ∈ out) ∨
      ((¬ ∃ skill, UsesSlot slot skill op ∧ Allowed skill name e.spec) ∧
        (Dict.get? (slot.effects tr') name = some e ∨
          (Dict.get? (slot.effects tr') name = none ∧
            ((op.time : WithTop ℚ) > e.endT ∨ e.uses = 0))) ∧
        ∀ skill, UsesSlot slot skill op → name ∉ out)) := by
  have hwf1 := expire_wf hwf op.time
  have hcomp : ∀ (t : ℚ) (skill : SkillCore) (slot' : Slot) (r), 
      slot'.compile (tr.expire op.time) t skill = .ok r → t = op.time →
      out = r.1.1.statusEffects → tr' = r.2 →
      (slot' = slot → ∀ sk, UsesSlot slot sk op ↔ sk = skill) →
      (slot' ≠ slot → ∀ sk, ¬ UsesSlot slot sk op) →
      (Dict.get? (slot.effects (tr.expire op.time)) name = none →
        Dict.get? (slot.effects tr') name = none ∧
        ∀ skill, UsesSlot slot skill op → name ∉ out) ∧
      (∀ e, Dict.get? (slot.effects (tr.expire op.time)) name = some e → e.start ≤ op.time →
        ((∃ skill, UsesSlot slot skill op ∧ Allowed skill name e.spec) ∧
          Dict.get? (slot.effects tr') name = some e.used ∧
          ∀ skill, UsesSlot slot skill op → name ∈ out) ∨
        ((¬ ∃ skill, UsesSlot slot skill op ∧ Allowed skill name e.spec) ∧
          (Dict.get? (slot.effects tr') name = some e ∨
            (Dict.get? (slot.effects tr') name = none ∧
              ((op.time : WithTop ℚ) > e.endT ∨ e.uses = 0))) ∧
          ∀ skill, UsesSlot slot skill op → name ∉ out)) := by
    rintro t skill slot' ⟨⟨agg, c⟩, r⟩ hc rfl rfl rfl hs1 hs2
    obtain ⟨hm, hg, hoth, _, _⟩ := compile_spec hwf1 hc
    by_cases hss : slot' = slot
    · subst hss
      have hs1 := hs1 rfl
      have hmem : name ∈ agg.statusEffects ↔
          ∃ e, Dict.get? (slot'.effects (tr.expire op.time)) name = some e ∧ e.start ≤ op.time ∧
            Allowed skill name e.spec := by
        rw [hm, valid_iff_get? (effects_nodup hwf1 _)]
        constructor
        · exact fun h => h.1
        · exact fun h => ⟨h, not_outranked hp _⟩
      constructor
      · intro hnone
        have hni : name ∉ agg.statusEffects := by
          rw [hmem]
          rintro ⟨e, he, _⟩
          rw [hnone] at he
          cases he
        exact ⟨by rw [hg, if_neg hni, hnone], fun _ _ => hni⟩
      · intro e he hst
        by_cases ha : Allowed skill name e.spec
        · left
          have hin : name ∈ agg.statusEffects := hmem.2 ⟨e, he, hst, ha⟩
          refine ⟨⟨skill, (hs1 skill).2 rfl, ha⟩, ?_, fun _ _ => hin⟩
          rw [hg, if_pos hin, he]
          rfl
        · right
          have hni : name ∉ agg.statusEffects := by
            rw [hmem]
            rintro ⟨e', he', _, ha'⟩
            rw [he] at he'
            cases he'
            exact ha ha'
          refine ⟨?_, Or.inl ?_, fun _ _ => hni⟩
          · rintro ⟨sk, hsk, ha'⟩
            rw [(hs1 sk).1 hsk] at ha'
            exact ha ha'
          · rw [hg, if_neg hni, he]
    · have hs2 := hs2 hss
      have heq := hoth slot (fun h => hss h.symm)
      simp only [heq]
      constructor
      · intro hnone
        exact ⟨hnone, fun sk hsk => absurd hsk (hs2 sk)⟩
      · intro e he _
        right
        refine ⟨?_, Or.inl he, fun sk hsk => absurd hsk (hs2 sk)⟩
        rintro ⟨sk, hsk, _⟩
        exact hs2 sk hsk
  cases op with
  | expire t =>
    simp only [TrackerOp.exec, Except.ok.injEq, Prod.mk.injEq, TrackerOp.time] at h ⊢
    obtain ⟨rfl, rfl⟩ := h
    have hn := effects_nodup hwf1 slot
    simp only [TrackerOp.time] at hn
    rw [effects_expire (tr.expire t) t slot, get?_expireEffects hn]
    constructor
    · intro hnone
      rw [hnone]
      exact ⟨rfl, by simp⟩
    · intro e he _
      rw [he]
      right
      refine ⟨by simp [UsesSlot], ?_, by simp⟩
      by_cases hc : (t : WithTop ℚ) ≤ e.endT ∧ e.uses ≠ 0
      · left
        simp only [if_pos hc]
      · right
        refine ⟨by simp only [if_neg hc], ?_⟩
        by_cases h1 : (t : WithTop ℚ) ≤ e.endT
        · right
          by_contra h2
          exact hc ⟨h1, h2⟩
        · left
          exact not_le.1 h1
  | add t skill m targets =>
    simp only [TrackerOp.exec] at h
    obtain ⟨r, hr, h⟩ := Py.bind_eq_ok.1 h
    simp only [Py.pure_eq, Except.ok.injEq, Prod.mk.injEq] at h
    obtain ⟨rfl, rfl⟩ := h
    rw [get?_add_leaves hr hl]
    constructor
    · intro hnone
      exact ⟨hnone, by simp⟩
    · intro e he _
      right
      exact ⟨by simp [UsesSlot], Or.inl he, by simp⟩
  | buffs t skill =>
    simp only [TrackerOp.exec] at h
    obtain ⟨r, hr, h⟩ := Py.bind_eq_ok.1 h
    simp only [Py.pure_eq, Except.ok.injEq, Prod.mk.injEq] at h
    refine hcomp t skill .buffs r hr rfl h.1.symm h.2.symm ?_ ?_
    · rintro rfl sk
      simp [UsesSlot, eq_comm]
    · intro hne sk hsk
      exact hne hsk.1.symm
  | debuffs t skill target =>
    simp only [TrackerOp.exec] at h
    obtain ⟨r, hr, h⟩ := Py.bind_eq_ok.1 h
    simp only [Py.pure_eq, Except.ok.injEq, Prod.mk.injEq] at h
    refine hcomp t skill (.debuffs target) r hr rfl h.1.symm h.2.symm ?_ ?_
    · rintro rfl sk
      simp [UsesSlot, eq_comm]
    · intro hne sk hsk
      exact hne hsk.1.symm

/-- An effect that is absent stays absent and never contributes. -/
theorem runOps_absent {tr tr' : StatusEffectTracker} (hwf : WellFormed tr) {ops : List TrackerOp}
    {outs : List (List String)} (h : runOps tr ops = .ok (outs, tr')) {slot : Slot} {name : String}
    (hp : name ∉ tr.priority) (hl : ∀ op ∈ ops, Leaves slot name op)
    (hnone : Dict.get? (slot.effects tr) name = none) :
    outs.length = ops.length ∧ Dict.get? (slot.effects tr') name = none ∧
    ∀ (i : ℕ) (op : TrackerOp) (out : List String), ops[i]? = some op → outs[i]? = some out →
      ∀ skill, UsesSlot slot skill op → name ∉ out := by
  induction ops generalizing tr outs with
  | nil =>
    simp only [runOps, Except.ok.injEq, Prod.mk.injEq] at h
    obtain ⟨rfl, rfl⟩ := h
    exact ⟨rfl, hnone, by simp⟩
  | cons op ops ih =>
    simp only [runOps] at h
    obtain ⟨⟨out, tr1⟩, h1, h⟩ := Py.bind_eq_ok.1 h
    obtain ⟨⟨outs1, tr2⟩, h2, h⟩ := Py.bind_eq_ok.1 h
    simp only [Py.pure_eq, Except.ok.injEq, Prod.mk.injEq] at h
    obtain ⟨rfl, rfl⟩ := h
    have hnone1 : Dict.get? (slot.effects (tr.expire op.time)) name = none := by
      rw [effects_expire, get?_expireEffects (effects_nodup hwf slot), hnone]
    obtain ⟨hA, _⟩ := exec_slot hwf h1 hp (hl op (by simp))
    obtain ⟨hB, hC⟩ := hA hnone1
    obtain ⟨hwf', hpr⟩ := exec_wf (expire_wf hwf _) h1
    obtain ⟨h3, h4, h5⟩ := ih hwf' h2 (by rw [hpr]; exact hp)
      (fun o ho => hl o (List.mem_cons_of_mem _ ho)) hB
    refine ⟨by simp [h3], h4, ?_⟩
    intro i o ou hi hou
    cases i with
    | zero =>
      simp only [List.getElem?_cons_zero, Option.some.injEq] at hi hou
      subst hi hou
      exact hC
    | succ i =>
      simp only [List.getElem?_cons_succ] at hi hou
      exact h5 i o ou hi hou

open Classical in
/-- The window-and-uses law: an effect contributes to an operation exactly when that operation is
eligible and fewer than the granted number of eligible operations precede it. -/
theorem runOps_law {tr tr' : StatusEffectTracker} (hwf : WellFormed tr) {ops : List TrackerOp}
    {outs : List (List String)} (h : runOps tr ops = .ok (outs, tr')) {slot : Slot} {name : String}
    (hp : name ∉ tr.priority) (hl : ∀ op ∈ ops, Leaves slot name op) {e : ActiveEffect}
    (he : Dict.get? (slot.effects tr) name = some e) (hu : 0 ≤ e.uses)
    (hstart : ∀ op ∈ ops, e.start ≤ op.time)
    (hmono : ops.Pairwise (fun a b => a.time ≤ b.time)) :
    outs.length = ops.length ∧
    ∀ (i : ℕ) (op : TrackerOp) (out : List String), ops[i]? = some op → outs[i]? = some out →
      ∀ skill, UsesSlot slot skill op →
        (name ∈ out ↔ Eligible slot name e.spec e.endT op ∧
          (((ops.take i).countP (fun o => decide (Eligible slot name e.spec e.endT o)) : ℤ)
            : WithTop ℤ) < e.uses) := by
  induction ops generalizing tr outs e with
  | nil =>
    simp only [runOps, Except.ok.injEq, Prod.mk.injEq] at h
    obtain ⟨rfl, rfl⟩ := h
    exact ⟨rfl, by simp⟩
  | cons op ops ih =>
    simp only [runOps] at h
    obtain ⟨⟨out, tr1⟩, h1, h⟩ := Py.bind_eq_ok.1 h
    obtain ⟨⟨outs1, tr2⟩, h2, h⟩ := Py.bind_eq_ok.1 h
    simp only [Py.pure_eq, Except.ok.injEq, Prod.mk.injEq] at h
    obtain ⟨rfl, rfl⟩ := h
    obtain ⟨hA, hB⟩ := exec_slot hwf h1 hp (hl op (by simp))
    obtain ⟨hwf', hpr⟩ := exec_wf (expire_wf hwf _) h1
    rw [List.pairwise_cons] at hmono
    have hexp : Dict.get? (slot.effects (tr.expire op.time)) name =
        if (op.time : WithTop ℚ) ≤ e.endT ∧ e.uses ≠ 0 then some e else none := by
      rw [effects_expire, get?_expireEffects (effects_nodup hwf slot), he]
    -- when the effect is gone, nothing is eligible any more
    have hdead : Dict.get? (slot.effects tr1) name = none →
        ((op.time : WithTop ℚ) > e.endT ∨ e.uses = 0) →
        (∀ skill, UsesSlot slot skill op → name ∉ out) →
        (out :: outs1).length = (op :: ops).length ∧
        ∀ (i : ℕ) (o : TrackerOp) (ou : List String), (op :: ops)[i]? = some o →
          (out :: outs1)[i]? = some ou →
          ∀ skill, UsesSlot slot skill o →
            (name ∈ ou ↔ Eligible slot name e.spec e.endT o ∧
              ((((op :: ops).take i).countP
                (fun o => decide (Eligible slot name e.spec e.endT o)) : ℤ) : WithTop ℤ) < e.uses) := by
      intro hnone hwhy hout
      obtain ⟨h3, _, h5⟩ := runOps_absent hwf' h2 (by rw [hpr]; exact hp)
        (fun o ho => hl o (List.mem_cons_of_mem _ ho)) hnone
      refine ⟨by simp [h3], ?_⟩
      intro i o ou hi hou skill hus
      have hno : name ∉ ou := by
        cases i with
        | zero =>
          simp only [List.getElem?_cons_zero, Option.some.injEq] at hi hou
          subst hi hou
          exact hout skill hus
        | succ i =>
          simp only [List.getElem?_cons_succ] at hi hou
          exact h5 i o ou hi hou skill hus
      have hto : op.time ≤ o.time := by
        cases i with
        | zero =>
          simp only [List.getElem?_cons_zero, Option.some.injEq] at hi
          rw [hi]
        | succ i =>
          simp only [List.getElem?_cons_succ] at hi
          exact hmono.1 o (List.mem_of_getElem? hi)
      constructor
      · exact fun hin => absurd hin hno
      · rintro ⟨⟨hel, _⟩, hcnt⟩
        exfalso
        rcases hwhy with hgt | hz
        · have : (op.time : WithTop ℚ) ≤ (o.time : WithTop ℚ) := WithTop.coe_le_coe.2 hto
          exact absurd (this.trans hel) (not_le.2 hgt)
        · rw [hz] at hcnt
          have : (0 : WithTop ℤ) ≤ (((((op :: ops).take i).countP
                (fun o => decide (Eligible slot name e.spec e.endT o)) : ℕ) : ℤ) : WithTop ℤ) := by
            exact_mod_cast Nat.zero_le _
          exact absurd hcnt (not_lt.2 this)
    by_cases hc : (op.time : WithTop ℚ) ≤ e.endT ∧ e.uses ≠ 0
    · rw [if_pos hc] at hexp
      have hpos : 0 < e.uses := lt_of_le_of_ne hu (Ne.symm hc.2)
      rcases hB e hexp (hstart op (by simp)) with ⟨hel, hg, hout⟩ | ⟨hel, hg | ⟨hg, hwhy⟩, hout⟩
      · -- eligible use
        have helig : Eligible slot name e.spec e.endT op := ⟨hc.1, hel⟩
        have hu' : 0 ≤ e.used.uses := by
          cases hue : e.uses with
          | top => simp [ActiveEffect.used, decUses, hue]
          | coe u =>
            rw [hue] at hpos
            have : (0 : ℤ) < u := by exact_mod_cast hpos
            simp only [ActiveEffect.used, decUses, hue, WithTop.map_coe]
            exact_mod_cast (by omega : (0 : ℤ) ≤ u - 1)
        obtain ⟨h3, h4⟩ := ih hwf' h2 (by rw [hpr]; exact hp)
          (fun o ho => hl o (List.mem_cons_of_mem _ ho)) hg hu'
          (fun o ho => hstart o (List.mem_cons_of_mem _ ho)) hmono.2
        refine ⟨by simp [h3], ?_⟩
        intro i o ou hi hou skill hus
        cases i with
        | zero =>
          simp only [List.getElem?_cons_zero, Option.some.injEq] at hi hou
          subst hi hou
          simp only [List.take_zero, List.countP_nil, Nat.cast_zero, WithTop.coe_zero]
          exact ⟨fun _ => ⟨helig, hpos⟩, fun _ => hout skill hus⟩
        | succ i =>
          simp only [List.getElem?_cons_succ] at hi hou
          have h4' : name ∈ ou ↔ Eligible slot name e.spec e.endT o ∧
              (((ops.take i).countP (fun o => decide (Eligible slot name e.spec e.endT o)) : ℤ)
                : WithTop ℤ) < decUses e.uses := h4 i o ou hi hou skill hus
          rw [h4']
          refine and_congr_right fun _ => ?_
          simp only [List.take_succ_cons, List.countP_cons, helig, decide_true, if_true]
          cases hue : e.uses with
          | top => simp [decUses]
          | coe u =>
            simp only [decUses, WithTop.map_coe, WithTop.coe_lt_coe]
            push_cast
            omega
      · -- not an eligible use, effect kept
        have hnel : ¬ Eligible slot name e.spec e.endT op := fun h => hel h.2
        obtain ⟨h3, h4⟩ := ih hwf' h2 (by rw [hpr]; exact hp)
          (fun o ho => hl o (List.mem_cons_of_mem _ ho)) hg hu
          (fun o ho => hstart o (List.mem_cons_of_mem _ ho)) hmono.2
        refine ⟨by simp [h3], ?_⟩
        intro i o ou hi hou skill hus
        cases i with
        | zero =>
          simp only [List.getElem?_cons_zero, Option.some.injEq] at hi hou
          subst hi hou
          exact ⟨fun hin => absurd hin (hout skill hus), fun h => absurd h.1 hnel⟩
        | succ i =>
          simp only [List.getElem?_cons_succ] at hi hou
          rw [h4 i o ou hi hou skill hus]
          refine and_congr_right fun _ => ?_
          simp only [List.take_succ_cons, List.countP_cons, hnel, decide_false, Bool.false_eq_true,
            if_false, Nat.add_zero]
      · exact hdead hg hwhy hout
    · rw [if_neg hc] at hexp
      obtain ⟨hB1, hC1⟩ := hA hexp
      refine hdead hB1 ?_ hC1
      by_cases h1 : (op.time : WithTop ℚ) ≤ e.endT
      · right
        by_contra h2
        exact hc ⟨h1, h2⟩
      · left
        exact not_le.1 h1

end Ama
