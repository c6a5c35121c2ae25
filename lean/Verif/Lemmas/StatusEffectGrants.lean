import Verif.Lemmas.StatusEffectRuns
import Verif.Lemmas.Strings

namespace Ama

open Spec StatusEffectTracker Utils

/-! ## Applying an effect -/

theorem get?_foldl_addDebuff_self (tr : StatusEffectTracker) (t : ℚ) (n : String)
    (s : StatusEffectSpec) (targets : List String) (hn : targets.Nodup) (target : String)
    (hm : target ∈ targets) (hx : n ∉ s.expiresStatusEffects) :
    Dict.get? ((targets.foldl (fun tr target => tr.addDebuff t n s target) tr).lookupDebuffs target) n =
      Dict.get? (addEffect (tr.lookupDebuffs target) t n s) n := by
  induction targets generalizing tr with
  | nil => simp at hm
  | cons a l ih =>
    rw [List.nodup_cons] at hn
    simp only [List.foldl_cons]
    by_cases ha : target = a
    · subst ha
      rw [foldl_addDebuff_other _ _ _ _ _ _ hn.1, get?_addDebuff_same, if_neg hx]
    · have hm' : target ∈ l := by
        rcases List.mem_cons.1 hm with h | h
        · exact absurd h ha
        · exact h
      rw [ih _ hn.2 hm', addDebuff_other _ _ _ _ _ _ ha]

theorem get?_addEffect_congr {es es' : Effects} {t : ℚ} {n : String} {s : StatusEffectSpec}
    (h : Dict.get? es n = Dict.get? es' n) :
    Dict.get? (addEffect es t n s) n = Dict.get? (addEffect es' t n s) n := by
  unfold addEffect
  rw [h]
  cases h' : Dict.get? es' n with
  | none =>
    simp only
    split_ifs
    · rw [h, h']
    · simp
  | some e => simp

/-- What granting does to the granted effect, starting from the dictionary `es0` (`[]` after a
clear-all). -/
theorem get?_grant {tr tr' : StatusEffectTracker} {t : ℚ} {skill : SkillCore} {m : SkillModifier}
    {targets : List String} {slot : Slot} {spec : StatusEffectSpec}
    (hg : Grants slot skill m targets spec) (ha : tr.add t skill m targets = .ok tr') :
    Dict.get? (slot.effects tr') skill.name =
      Dict.get? (addEffect (if slot = .buffs ∧ spec.clearAllStatusEffects = true then []
        else slot.effects tr) t skill.name spec) skill.name := by
  obtain ⟨b, d, hb, hd, rfl⟩ := add_ok ha
  obtain ⟨hn, hx, hg⟩ := hg
  cases slot with
  | buffs =>
    obtain ⟨hb', hd'⟩ := hg
    rw [hb] at hb'
    cases hb'
    have h1 : Dict.get? (applyBuff tr t skill.name (some spec)).buffs skill.name =
        Dict.get? (addEffect (if spec.clearAllStatusEffects then [] else tr.buffs) t skill.name spec)
          skill.name := by
      simp only [applyBuff]
      rw [get?_addBuff_buffs, if_neg hx]
    simp only [Slot.effects, true_and]
    rw [← h1]
    cases d with
    | none => rfl
    | some d => exact get?_foldl_addDebuff_buffs _ _ _ _ _ _ (hd' d hd)
  | debuffs target =>
    obtain ⟨hd', hm, hb'⟩ := hg
    rw [hd] at hd'
    cases hd'
    simp only [Slot.effects, applyDebuff, reduceCtorEq, false_and, if_false]
    rw [get?_foldl_addDebuff_self _ _ _ _ _ hn _ hm hx]
    apply get?_addEffect_congr
    cases b with
    | none => rfl
    | some b =>
      simp only [applyBuff]
      rw [get?_addBuff_debuffs, if_neg]
      exact fun h => hb' b hb h.2

theorem get?_grant_fresh {tr tr' : StatusEffectTracker} {t : ℚ} {skill : SkillCore}
    {m : SkillModifier} {targets : List String} {slot : Slot} {spec : StatusEffectSpec}
    (hg : Grants slot skill m targets spec) (hx : spec.extendOnly = false)
    (hf : skill.name ∉ Dict.keys (slot.effects tr)) (ha : tr.add t skill m targets = .ok tr') :
    Dict.get? (slot.effects tr') skill.name =
      some { start := t, endT := (t : WithTop ℚ) + spec.duration, uses := spec.numUses,
             spec := spec } := by
  rw [get?_grant hg ha]
  have : Dict.get? (if slot = .buffs ∧ spec.clearAllStatusEffects = true then []
        else slot.effects tr) skill.name = none := by
    split_ifs
    · rfl
    · exact Dict.get?_eq_none.2 hf
  unfold addEffect
  rw [this]
  simp [hx]

/-! ## Operations that do not apply an effect -/

/-- The effect was left alone, ended at `t`, or removed. -/
def Weakened (t : ℚ) (r r' : Option ActiveEffect) : Prop :=
  r' = r ∨ r' = r.map (fun e => { e with endT := (t : WithTop ℚ) }) ∨ r' = none

theorem Weakened.trans {t : ℚ} {a b c : Option ActiveEffect} (h : Weakened t a b)
    (h' : Weakened t b c) : Weakened t a c := by
  rcases h with rfl | rfl | rfl
  · exact h'
  · rcases h' with rfl | rfl | rfl
    · exact Or.inr (Or.inl rfl)
    · right; left
      cases a <;> rfl
    · exact Or.inr (Or.inr rfl)
  · rcases h' with rfl | rfl | rfl
    · exact Or.inr (Or.inr rfl)
    · exact Or.inr (Or.inr rfl)
    · exact Or.inr (Or.inr rfl)

theorem addDebuff_weakened (tr : StatusEffectTracker) (t : ℚ) (n : String) (s : StatusEffectSpec)
    (target : String) (slot : Slot) (name : String)
    (h : slot = .debuffs target → n ≠ name) :
    Weakened t (Dict.get? (slot.effects tr) name)
      (Dict.get? (slot.effects (tr.addDebuff t n s target)) name) := by
  cases slot with
  | buffs =>
    simp only [Slot.effects]
    rw [get?_addDebuff_buffs]
    split_ifs
    · exact Or.inr (Or.inl rfl)
    · exact Or.inl rfl
  | debuffs tg =>
    simp only [Slot.effects]
    by_cases he : tg = target
    · subst he
      rw [get?_addDebuff_same, get?_addEffect_ne (h rfl)]
      simp only
      split_ifs
      · exact Or.inr (Or.inl rfl)
      · exact Or.inl rfl
    · rw [addDebuff_other _ _ _ _ _ _ he]
      exact Or.inl rfl

theorem foldl_addDebuff_weakened (tr : StatusEffectTracker) (t : ℚ) (n : String)
    (s : StatusEffectSpec) (targets : List String) (slot : Slot) (name : String)
    (h : ∀ target ∈ targets, slot = .debuffs target → n ≠ name) :
    Weakened t (Dict.get? (slot.effects tr) name)
      (Dict.get? (slot.effects
        (targets.foldl (fun tr target => tr.addDebuff t n s target) tr)) name) := by
  induction targets generalizing tr with
  | nil => exact Or.inl rfl
  | cons a l ih =>
    simp only [List.foldl_cons]
    exact (addDebuff_weakened tr t n s a slot name (h a (by simp))).trans
      (ih _ (fun tg htg => h tg (List.mem_cons_of_mem _ htg)))

theorem addBuff_weakened (tr : StatusEffectTracker) (t : ℚ) (n : String) (s : StatusEffectSpec)
    (slot : Slot) (name : String) (h : slot = .buffs → n ≠ name) :
    Weakened t (Dict.get? (slot.effects tr) name)
      (Dict.get? (slot.effects (tr.addBuff t n s)) name) := by
  cases slot with
  | buffs =>
    simp only [Slot.effects]
    rw [get?_addBuff_buffs, get?_addEffect_ne (h rfl)]
    simp only
    cases s.clearAllStatusEffects
    · simp only [Bool.false_eq_true, if_false]
      split_ifs
      · exact Or.inr (Or.inl rfl)
      · exact Or.inl rfl
    · simp only [if_true]
      right; right
      split_ifs <;> rfl
  | debuffs tg =>
    simp only [Slot.effects]
    rw [get?_addBuff_debuffs]
    split_ifs
    · exact Or.inr (Or.inl rfl)
    · exact Or.inl rfl

theorem add_weakened {tr tr' : StatusEffectTracker} {t : ℚ} {skill : SkillCore} {m : SkillModifier}
    {targets : List String} (ha : tr.add t skill m targets = .ok tr') {slot : Slot} {name : String}
    (hl : DoesNotApply slot name (.add t skill m targets)) :
    Weakened t (Dict.get? (slot.effects tr) name) (Dict.get? (slot.effects tr') name) := by
  obtain ⟨b, d, hb, hd, rfl⟩ := add_ok ha
  have h1 : Weakened t (Dict.get? (slot.effects tr) name)
      (Dict.get? (slot.effects (applyBuff tr t skill.name b)) name) := by
    cases b with
    | none => exact Or.inl rfl
    | some s =>
      apply addBuff_weakened
      rintro rfl
      exact hl s hb
  refine h1.trans ?_
  cases d with
  | none => exact Or.inl rfl
  | some s =>
    apply foldl_addDebuff_weakened
    rintro tg htg rfl
    exact hl s hd htg

/-- One (expire-first) operation at or after `t0` that does not apply `name`: an effect that has ended
by `t0` stays ended, and contributes to nothing after `t0`. -/
theorem exec_ended {tr : StatusEffectTracker} (hwf : WellFormed tr) {op : TrackerOp}
    {out : List String} {tr' : StatusEffectTracker} (h : op.use tr = .ok (out, tr')) {slot : Slot}
    {name : String} (hl : DoesNotApply slot name op) {t0 : ℚ} (ht : t0 ≤ op.time)
    (hend : ∀ e, Dict.get? (slot.effects tr) name = some e → e.endT ≤ (t0 : WithTop ℚ)) :
    (∀ e, Dict.get? (slot.effects tr') name = some e → e.endT ≤ (t0 : WithTop ℚ)) ∧
    (t0 < op.time → ∀ skill, UsesSlot slot skill op → name ∉ out) := by
  have hwf1 := expire_wf hwf op.time
  have hexp : ∀ e, Dict.get? (slot.effects (tr.expire op.time)) name = some e →
      e.endT ≤ (t0 : WithTop ℚ) ∧ op.time = t0 := by
    intro e he
    rw [effects_expire, get?_expireEffects (effects_nodup hwf slot)] at he
    split at he
    · next e' he' =>
      split_ifs at he with hc
      cases he
      have h1 := hend _ he'
      refine ⟨h1, le_antisymm ?_ ht⟩
      exact WithTop.coe_le_coe.1 (hc.1.trans h1)
    · cases he
  have hcomp : ∀ (t : ℚ) (skill : SkillCore) (slot' : Slot) (r),
      slot'.compile (tr.expire op.time) t skill = .ok r → 
      out = r.1.1.statusEffects → tr' = r.2 → (∀ sk, UsesSlot slot sk op → slot' = slot) →
      (∀ e, Dict.get? (slot.effects tr') name = some e → e.endT ≤ (t0 : WithTop ℚ)) ∧
      (t0 < op.time → ∀ skill, UsesSlot slot skill op → name ∉ out) := by
    rintro t skill slot' ⟨⟨agg, c⟩, r⟩ hc rfl rfl hs
    obtain ⟨hm, hg, hoth, _, _⟩ := compile_spec hwf1 hc
    constructor
    · intro e he
      by_cases hss : slot' = slot
      · subst hss
        rw [hg] at he
        split_ifs at he
        · cases h0 : Dict.get? (slot'.effects (tr.expire op.time)) name with
          | none => rw [h0] at he; cases he
          | some e0 =>
            rw [h0] at he
            cases he
            exact (hexp e0 h0).1
        · exact (hexp e he).1
      · have := hoth slot (fun h => hss h.symm)
        rw [this] at he
        exact (hexp e he).1
    · intro hlt sk hsk hin
      have := hs sk hsk
      subst this
      obtain ⟨⟨e, he, _⟩, _⟩ := (hm name).1 hin
      have := (hexp e (Dict.get?_of_mem (effects_nodup hwf1 _) he)).2
      rw [this] at hlt
      exact lt_irrefl _ hlt
  unfold TrackerOp.use at h
  cases op with
  | expire t =>
    simp only [TrackerOp.exec, Except.ok.injEq, Prod.mk.injEq, TrackerOp.time] at h hexp ⊢
    obtain ⟨rfl, rfl⟩ := h
    refine ⟨?_, by simp⟩
    intro e he
    have hn := effects_nodup hwf1 slot
    simp only [TrackerOp.time] at hn
    rw [effects_expire (tr.expire t) t slot, get?_expireEffects hn] at he
    split at he
    · next e' he' =>
      split_ifs at he
      cases he
      exact (hexp _ he').1
    · cases he
  | add t skill m targets =>
    simp only [TrackerOp.exec] at h
    obtain ⟨r, hr, h⟩ := Py.bind_eq_ok.1 h
    simp only [Py.pure_eq, Except.ok.injEq, Prod.mk.injEq] at h
    obtain ⟨rfl, rfl⟩ := h
    refine ⟨?_, by simp⟩
    intro e he
    rcases add_weakened hr hl with h1 | h1 | h1
    · rw [h1] at he
      exact (hexp e he).1
    · rw [h1] at he
      cases h0 : Dict.get? (slot.effects (tr.expire (TrackerOp.add t skill m targets).time)) name with
      | none => rw [h0] at he; cases he
      | some e0 =>
        rw [h0] at he
        cases he
        have := (hexp e0 h0).2
        simp only [TrackerOp.time] at this
        rw [this]
    · rw [h1] at he
      cases he
  | buffs t skill =>
    simp only [TrackerOp.exec] at h
    obtain ⟨r, hr, h⟩ := Py.bind_eq_ok.1 h
    simp only [Py.pure_eq, Except.ok.injEq, Prod.mk.injEq] at h
    exact hcomp t skill .buffs r hr h.1.symm h.2.symm (fun sk hsk => hsk.1.symm)
  | debuffs t skill target =>
    simp only [TrackerOp.exec] at h
    obtain ⟨r, hr, h⟩ := Py.bind_eq_ok.1 h
    simp only [Py.pure_eq, Except.ok.injEq, Prod.mk.injEq] at h
    exact hcomp t skill (.debuffs target) r hr h.1.symm h.2.symm (fun sk hsk => hsk.1.symm)

theorem runOps_ended {tr tr' : StatusEffectTracker} (hwf : WellFormed tr) {ops : List TrackerOp}
    {outs : List (List String)} (h : runOps tr ops = .ok (outs, tr')) {slot : Slot} {name : String}
    {t0 : ℚ} (hl : ∀ op ∈ ops, DoesNotApply slot name op) (ht : ∀ op ∈ ops, t0 ≤ op.time)
    (hend : ∀ e, Dict.get? (slot.effects tr) name = some e → e.endT ≤ (t0 : WithTop ℚ)) :
    ∀ (i : ℕ) (op : TrackerOp) (out : List String), ops[i]? = some op → outs[i]? = some out →
      t0 < op.time → ∀ skill, UsesSlot slot skill op → name ∉ out := by
  induction ops generalizing tr outs with
  | nil => simp
  | cons op ops ih =>
    simp only [runOps] at h
    obtain ⟨⟨out, tr1⟩, h1, h⟩ := Py.bind_eq_ok.1 h
    obtain ⟨⟨outs1, tr2⟩, h2, h⟩ := Py.bind_eq_ok.1 h
    simp only [Py.pure_eq, Except.ok.injEq, Prod.mk.injEq] at h
    obtain ⟨rfl, rfl⟩ := h
    obtain ⟨hA, hB⟩ := exec_ended hwf h1 (hl op (by simp)) (ht op (by simp)) hend
    obtain ⟨hwf', _⟩ := exec_wf (expire_wf hwf _) h1
    intro i o ou hi hou
    cases i with
    | zero =>
      simp only [List.getElem?_cons_zero, Option.some.injEq] at hi hou
      subst hi hou
      exact hB
    | succ i =>
      simp only [List.getElem?_cons_succ] at hi hou
      exact ih hwf' h2 (fun o ho => hl o (List.mem_cons_of_mem _ ho))
        (fun o ho => ht o (List.mem_cons_of_mem _ ho)) hA i o ou hi hou

/-! ## Aggregates and permutations -/

theorem sublist_eq_filter {l k : List String} (h : l.Sublist k) (hn : k.Nodup) :
    l = k.filter (fun x => decide (x ∈ l)) := by
  induction h with
  | slnil => rfl
  | cons a h ih =>
    rw [List.nodup_cons] at hn
    rw [List.filter_cons_of_neg]
    · exact ih hn.2
    · simp only [decide_eq_true_eq]
      exact fun h' => hn.1 (h.subset h')
  | @cons_cons l k a h ih =>
    rw [List.nodup_cons] at hn
    rw [List.filter_cons_of_pos (by simp)]
    congr 1
    have h1 := ih hn.2
    conv_lhs => rw [h1]
    apply List.filter_congr
    intro x hx
    have : x ≠ a := by rintro rfl; exact hn.1 hx
    simp [this]

theorem specsOf_eq {es : Effects} (hn : (Dict.keys es).Nodup) {names : List String}
    (h : names.Sublist (Dict.keys es)) :
    specsOf es names =
      (es.filter (fun kv => decide (kv.1 ∈ names))).map (fun kv => (kv.1, kv.2.spec)) := by
  have h1 := sublist_eq_filter h hn
  have h2 : names = (es.filter (fun kv => decide (kv.1 ∈ names))).map Prod.fst := by
    conv_lhs => rw [h1]
    unfold Dict.keys
    rw [List.filter_map]
    rfl
  unfold specsOf
  conv_lhs => rw [h2]
  rw [List.filterMap_map, ← List.filterMap_eq_map]
  apply List.filterMap_congr
  intro kv hkv
  have := Dict.get?_of_mem hn (k := kv.1) (v := kv.2) (List.mem_filter.1 hkv).1
  simp [this]

theorem keys_perm {es es' : Effects} (hp : es.Perm es') : (Dict.keys es).Perm (Dict.keys es') :=
  hp.map _

theorem contribNames_perm {priority : List String} {t : ℚ} {es es' : Effects} {dl : List String}
    {sn : String} (hn : (Dict.keys es).Nodup) (hp : es.Perm es') :
    (contribNames priority t es dl sn).Perm (contribNames priority t es' dl sn) := by
  have hv : (validNames t es dl sn).Perm (validNames t es' dl sn) := (hp.filter _).map _
  have hvn : (validNames t es dl sn).Nodup := (validNames_sublist _ _ _ _).nodup hn
  have hvn' : (validNames t es' dl sn).Nodup := (hv.nodup_iff).1 hvn
  unfold contribNames
  rw [List.perm_ext_iff_of_nodup ((deleteLowerPriority_sublist _ _).nodup hvn)
    ((deleteLowerPriority_sublist _ _).nodup hvn')]
  intro n
  rw [mem_deleteLowerPriority hvn, mem_deleteLowerPriority hvn']
  simp only [hv.mem_iff]

theorem specsOf_perm {priority : List String} {t : ℚ} {es es' : Effects} {dl : List String}
    {sn : String} (hn : (Dict.keys es).Nodup) (hp : es.Perm es') :
    (specsOf es (contribNames priority t es dl sn)).Perm
      (specsOf es' (contribNames priority t es' dl sn)) := by
  have hn' : (Dict.keys es').Nodup := ((keys_perm hp).nodup_iff).1 hn
  rw [specsOf_eq hn (contribNames_sublist _ _ _ _ _), specsOf_eq hn' (contribNames_sublist _ _ _ _ _)]
  have hc := contribNames_perm (priority := priority) (t := t) (dl := dl) (sn := sn) hn hp
  have : (es.filter (fun kv => decide (kv.1 ∈ contribNames priority t es dl sn))) =
      (es.filter (fun kv => decide (kv.1 ∈ contribNames priority t es' dl sn))) := by
    apply List.filter_congr
    intro kv _
    simp only [hc.mem_iff]
  rw [this]
  exact (hp.filter _).map _

theorem forcedFrom_perm {f : StatusEffectSpec → Forced} {g : Forced} {L L' : List StatusEffectSpec}
    (hp : L.Perm L') : forcedFrom f g L = forcedFrom f g L' := by
  unfold forcedFrom
  have h := hp.filter (fun s => decide (f s ≠ .default))
  cases h1 : L.filter (fun s => decide (f s ≠ .default)) with
  | nil =>
    rw [h1] at h
    rw [h.nil_eq.symm]
  | cons a l =>
    rw [h1] at h
    cases l with
    | nil =>
      rw [← List.singleton_perm.1 h]
    | cons b l =>
      cases h2 : L'.filter (fun s => decide (f s ≠ .default)) with
      | nil => rw [h2] at h; exact absurd h.length_eq (by simp)
      | cons a' l' =>
        cases l' with
        | nil => rw [h2] at h; exact absurd h.length_eq (by simp)
        | cons b' l' => rfl

theorem aggFrom_agg_perm {c d : Forced} {L L' : List (String × StatusEffectSpec)} (hp : L.Perm L') :
    (aggFrom {} c d L).agg = (aggFrom {} c d L').agg := by
  unfold aggFrom
  simp only [StatusEffects.mk.injEq, and_true]
  refine ⟨?_, ?_, ?_, ?_, ?_, ?_, ?_, ?_, ?_⟩ <;> congr 1
  all_goals first
    | exact (hp.map _).sum_eq
    | exact (hp.map _).prod_eq

end Ama
