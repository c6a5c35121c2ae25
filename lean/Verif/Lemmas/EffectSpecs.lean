import Verif.Props.StatusEffects

/-!
# What holds of the specifications of all effects a tracker holds
-/

namespace Ama

open Spec StatusEffectTracker

/-- All effects of the tracker have specifications satisfying `P`. -/
def AllSpecs (P : StatusEffectSpec → Prop) (tr : StatusEffectTracker) : Prop :=
  (∀ kv ∈ tr.buffs, P kv.2.spec) ∧ ∀ d ∈ tr.debuffs, ∀ kv ∈ d.2, P kv.2.spec

/-- All effects of the skill satisfy `P`. -/
def SkillSpecs (P : StatusEffectSpec → Prop) (skill : SkillCore) : Prop :=
  ∀ m s, (skill.getBuffSpec m = .ok (some s) ∨ skill.getDebuffSpec m = .ok (some s)) → P s

variable {P : StatusEffectSpec → Prop} {tr tr' : StatusEffectTracker}

theorem allSpecs_empty (priority : List String) : AllSpecs P { priority := priority } :=
  ⟨by simp, by simp⟩

theorem AllSpecs.slot (h : AllSpecs P tr) (slot : Slot) : ∀ kv ∈ slot.effects tr, P kv.2.spec := by
  cases slot with
  | buffs => exact h.1
  | debuffs target =>
    intro kv hkv
    change kv ∈ (Dict.get? tr.debuffs target).getD [] at hkv
    cases hg : Dict.get? tr.debuffs target with
    | none => rw [hg] at hkv; simp at hkv
    | some es =>
      rw [hg] at hkv
      exact h.2 _ (Dict.mem_of_get? hg) kv hkv

theorem allSpecs_setDebuffs (h : AllSpecs P tr) {target : String} {es : Effects}
    (he : ∀ kv ∈ es, P kv.2.spec) : AllSpecs P (tr.setDebuffs target es) := by
  refine ⟨h.1, ?_⟩
  intro d hd kv hkv
  rcases mem_set_imp hd with hd | hd
  · exact h.2 d hd kv hkv
  · cases hd
    exact he kv hkv

theorem AllSpecs.expire (h : AllSpecs P tr) (t : ℚ) : AllSpecs P (tr.expire t) := by
  refine ⟨fun kv hkv => h.1 kv (List.mem_of_mem_filter hkv), ?_⟩
  intro d hd kv hkv
  obtain ⟨d', hd', rfl⟩ := List.mem_map.1 hd
  exact h.2 d' hd' kv (List.mem_of_mem_filter hkv)

theorem specs_endEffect {es : Effects} (h : ∀ kv ∈ es, P kv.2.spec) (n : String) (t : ℚ) :
    ∀ kv ∈ endEffect es n t, P kv.2.spec := by
  unfold endEffect
  cases hg : Dict.get? es n with
  | none => exact h
  | some e =>
    intro kv hkv
    rcases mem_set_imp hkv with hkv | hkv
    · exact h kv hkv
    · cases hkv
      exact h (n, e) (Dict.mem_of_get? hg)

theorem specs_addEffect {es : Effects} (h : ∀ kv ∈ es, P kv.2.spec) (n : String) (t : ℚ)
    {s : StatusEffectSpec} (hs : P s) : ∀ kv ∈ addEffect es t n s, P kv.2.spec := by
  unfold addEffect
  cases hg : Dict.get? es n with
  | none =>
    simp only
    split_ifs
    · exact h
    · intro kv hkv
      rcases mem_set_imp hkv with hkv | hkv
      · exact h kv hkv
      · cases hkv
        exact hs
  | some e =>
    intro kv hkv
    rcases mem_set_imp hkv with hkv | hkv
    · exact h kv hkv
    · cases hkv
      exact hs

theorem AllSpecs.expireNamed (h : AllSpecs P tr) (n : String) (t : ℚ) (target : String) :
    AllSpecs P (tr.expireNamed n t target) := by
  have h1 : AllSpecs P { tr with buffs := endEffect tr.buffs n t } :=
    ⟨specs_endEffect h.1 n t, h.2⟩
  exact allSpecs_setDebuffs h1 (specs_endEffect (h1.slot (.debuffs target)) n t)

theorem AllSpecs.foldl_expireNamed (h : AllSpecs P tr) (l : List String) (t : ℚ) (target : String) :
    AllSpecs P (l.foldl (fun tr name => tr.expireNamed name t target) tr) := by
  induction l generalizing tr with
  | nil => exact h
  | cons n l ih => exact ih (h.expireNamed n t target)

theorem AllSpecs.addBuff (h : AllSpecs P tr) (t : ℚ) (n : String) {s : StatusEffectSpec} (hs : P s) :
    AllSpecs P (tr.addBuff t n s) := by
  unfold StatusEffectTracker.addBuff
  refine AllSpecs.foldl_expireNamed ?_ _ _ _
  split_ifs
  · exact ⟨specs_addEffect (es := []) (by simp) n t hs, h.2⟩
  · exact ⟨specs_addEffect h.1 n t hs, h.2⟩

theorem AllSpecs.addDebuffs (h : AllSpecs P tr) (t : ℚ) (n : String) {s : StatusEffectSpec} (hs : P s)
    (targets : List String) :
    AllSpecs P (targets.foldl (fun tr target => tr.addDebuff t n s target) tr) := by
  induction targets generalizing tr with
  | nil => exact h
  | cons target targets ih =>
    refine ih ?_
    unfold StatusEffectTracker.addDebuff
    exact (allSpecs_setDebuffs h
      (specs_addEffect (h.slot (.debuffs target)) n t hs)).foldl_expireNamed _ _ _

theorem AllSpecs.add (h : AllSpecs P tr) {t : ℚ} {skill : SkillCore} {m : SkillModifier}
    {targets : List String} (hs : SkillSpecs P skill) (ha : tr.add t skill m targets = .ok tr') :
    AllSpecs P tr' := by
  unfold StatusEffectTracker.add at ha
  obtain ⟨b, h1, ha⟩ := Py.bind_eq_ok.1 ha
  obtain ⟨d, h2, ha⟩ := Py.bind_eq_ok.1 ha
  have hb : AllSpecs P (match (generalizing := false) b with
    | none => tr
    | some spec => tr.addBuff t skill.name spec) := by
    cases b with
    | none => exact h
    | some s => exact h.addBuff t _ (hs m s (.inl h1))
  cases d with
  | none => cases ha; exact hb
  | some s => cases ha; exact hb.addDebuffs t _ (hs m s (.inr h2)) targets

theorem specs_compileSteps {names : List String} {es es' : Effects} {a a' : CompileAcc}
    (h : ∀ kv ∈ es, P kv.2.spec) (h1 : names.foldlM compileStep (es, a) = .ok (es', a')) :
    ∀ kv ∈ es', P kv.2.spec := by
  induction names generalizing es a with
  | nil => cases h1; exact h
  | cons x names ih =>
    rw [Py.foldlM_cons] at h1
    obtain ⟨⟨es2, acc2⟩, h2, h1⟩ := Py.bind_eq_ok.1 h1
    refine ih ?_ h1
    unfold compileStep at h2
    obtain ⟨e, h3, h2⟩ := Py.bind_eq_ok.1 h2
    obtain ⟨a, _, h2⟩ := Py.bind_eq_ok.1 h2
    cases h2
    intro kv hkv
    rcases mem_set_imp hkv with hkv | hkv
    · exact h kv hkv
    · cases hkv
      unfold Dict.get at h3
      cases hg : Dict.get? es x with
      | none => simp [hg] at h3
      | some e' =>
        simp only [hg, Except.ok.injEq] at h3
        subst h3
        exact h (x, e') (Dict.mem_of_get? hg)

theorem specs_compile {priority : List String} {t : ℚ} {es es' : Effects} {dl : List String}
    {n : String} {agg : StatusEffects} {c : String} (h : ∀ kv ∈ es, P kv.2.spec)
    (hc : compileEffects priority t es dl n = .ok (agg, c, es')) : ∀ kv ∈ es', P kv.2.spec := by
  unfold compileEffects at hc
  obtain ⟨⟨es1, acc⟩, h1, hc⟩ := Py.bind_eq_ok.1 hc
  cases hc
  exact specs_compileSteps h h1

theorem AllSpecs.compile (h : AllSpecs P tr) {slot : Slot} {t : ℚ} {skill : SkillCore}
    {agg : StatusEffects} {c : String} (hc : slot.compile tr t skill = .ok ((agg, c), tr')) :
    AllSpecs P tr' := by
  cases slot with
  | buffs =>
    unfold Slot.compile compileBuffs at hc
    obtain ⟨⟨agg1, c1, es⟩, h1, hc⟩ := Py.bind_eq_ok.1 hc
    cases hc
    exact ⟨specs_compile h.1 h1, h.2⟩
  | debuffs target =>
    unfold Slot.compile compileDebuffs at hc
    obtain ⟨⟨agg1, c1, es⟩, h1, hc⟩ := Py.bind_eq_ok.1 hc
    cases hc
    exact allSpecs_setDebuffs h (specs_compile (h.slot (.debuffs target)) h1)

theorem prod_nonneg' {l : List ℚ} (h : ∀ x ∈ l, 0 ≤ x) : 0 ≤ l.prod := by
  induction l with
  | nil => simp
  | cons a l ih =>
    rw [List.prod_cons]
    exact mul_nonneg (h a List.mem_cons_self) (ih (fun x hx => h x (List.mem_cons_of_mem _ hx)))

/-- The delay between auto-attacks is not multiplied by a negative number. -/
theorem autoMult_nonneg (hwf : WellFormed tr)
    (h : AllSpecs (fun s => s.autoAttackDelayReduction ≤ 1) tr) {slot : Slot} {t : ℚ}
    {skill : SkillCore} {agg : StatusEffects} {c : String}
    (hc : slot.compile tr t skill = .ok ((agg, c), tr')) : 0 ≤ agg.autoAttackDelayMult := by
  have := (C11_product_and_sum tr tr' hwf t skill slot agg c hc).2.2.2.1
  rw [this]
  refine prod_nonneg' ?_
  intro x hx
  obtain ⟨s, hs, rfl⟩ := List.mem_map.1 hx
  obtain ⟨kv, hkv, rfl⟩ := List.mem_map.1 hs
  have := h.slot slot kv (List.mem_of_mem_filter hkv)
  linarith

end Ama
