import Verif.Spec.Damage
import Verif.Lemmas.StatusEffects
import Verif.Lemmas.Combos

/-!
# Lemmas for the absence of exceptions in the trackers
-/

namespace Ama

open Spec

theorem Dict.mem_set_imp {κ ν : Type} [DecidableEq κ] {d : Dict κ ν} {k : κ} {v : ν} {p : κ × ν}
    (h : p ∈ Dict.set d k v) : p ∈ d ∨ p = (k, v) := by
  induction d with
  | nil =>
    simp only [Dict.set, List.mem_singleton] at h
    exact .inr h
  | cons q d ih =>
    simp only [Dict.set] at h
    split_ifs at h with hk
    · rcases List.mem_cons.1 h with h | h
      · exact .inr (by rw [h, hk])
      · exact .inl (List.mem_cons_of_mem _ h)
    · rcases List.mem_cons.1 h with h | h
      · exact .inl (by rw [h]; simp)
      · rcases ih h with h | h
        · exact .inl (List.mem_cons_of_mem _ h)
        · exact .inr h

/-! ## Status effects -/

/-- The active effects are given by skills in `P`. -/
def Given (get : SkillCore → SkillModifier → Py (Option StatusEffectSpec)) (P : SkillCore → Prop)
    (es : Effects) : Prop :=
  (Dict.keys es).Nodup ∧ ∀ kv ∈ es, ∃ a m, P a ∧ a.name = kv.1 ∧ get a m = .ok (some kv.2.spec)

/-- The skills in `P` agree, and all active effects are theirs. -/
structure CalmTracker (P : SkillCore → Prop) (tr : StatusEffectTracker) : Prop where
  agree : Agree P
  buffs : Given SkillCore.getBuffSpec P tr.buffs
  debuffs : ∀ kv ∈ tr.debuffs, Given SkillCore.getDebuffSpec P kv.2

namespace StatusEffectTracker

variable {P : SkillCore → Prop} {get : SkillCore → SkillModifier → Py (Option StatusEffectSpec)}

theorem given_nil : Given get P [] := ⟨List.nodup_nil, by intro kv h; simp at h⟩

theorem given_set {es : Effects} (h : Given get P es) {a : SkillCore} (ha : P a) {e : ActiveEffect}
    {m : SkillModifier} (he : get a m = .ok (some e.spec)) : Given get P (Dict.set es a.name e) := by
  refine ⟨Dict.nodup_set h.1 _ _, fun kv hkv => ?_⟩
  rcases Dict.mem_set_imp hkv with h1 | rfl
  · exact h.2 kv h1
  · exact ⟨a, m, ha, rfl, he⟩

theorem given_set_same {es : Effects} (h : Given get P es) {n : String} {e e' : ActiveEffect}
    (hg : Dict.get? es n = some e) (he : e'.spec = e.spec) : Given get P (Dict.set es n e') := by
  obtain ⟨a, m, ha, hn, hm⟩ := h.2 (n, e) (Dict.mem_of_get? hg)
  have hn : a.name = n := hn
  rw [← hn]
  exact given_set h ha (m := m) (by rw [he]; exact hm)

theorem given_expireEffects {es : Effects} (h : Given get P es) (t : ℚ) : Given get P (expireEffects t es) :=
  ⟨expireEffects_nodup h.1, fun kv hkv => h.2 kv (List.mem_filter.1 hkv).1⟩

theorem calm_expire {tr : StatusEffectTracker} (h : CalmTracker P tr) (t : ℚ) :
    CalmTracker P (tr.expire t) := by
  refine ⟨h.agree, given_expireEffects h.buffs t, fun kv hkv => ?_⟩
  obtain ⟨kv', h1, rfl⟩ := List.mem_map.1 hkv
  exact given_expireEffects (h.debuffs kv' h1) t

theorem given_lookup {tr : StatusEffectTracker} (h : CalmTracker P tr) (target : String) :
    Given SkillCore.getDebuffSpec P (tr.lookupDebuffs target) := by
  unfold lookupDebuffs
  cases hg : Dict.get? tr.debuffs target with
  | none => exact given_nil
  | some es => exact h.debuffs (target, es) (Dict.mem_of_get? hg)

theorem calm_setDebuffs {tr : StatusEffectTracker} (h : CalmTracker P tr) (target : String)
    {es : Effects} (he : Given SkillCore.getDebuffSpec P es) : CalmTracker P (tr.setDebuffs target es) := by
  refine ⟨h.agree, h.buffs, fun kv hkv => ?_⟩
  rcases Dict.mem_set_imp hkv with h1 | rfl
  · exact h.debuffs kv h1
  · exact he

theorem given_addEffect {es : Effects} (h : Given get P es) (t : ℚ) {a : SkillCore} (ha : P a)
    {m : SkillModifier} {s : StatusEffectSpec} (hs : get a m = .ok (some s)) :
    Given get P (addEffect es t a.name s) := by
  unfold addEffect
  split
  · split_ifs
    · exact h
    · exact given_set h ha hs
  · exact given_set h ha hs

theorem given_endEffect {es : Effects} (h : Given get P es) (n : String) (t : ℚ) :
    Given get P (endEffect es n t) := by
  unfold endEffect
  split
  · exact h
  · next e he => exact given_set_same h he rfl

theorem calm_expireNamed {tr : StatusEffectTracker} (h : CalmTracker P tr) (n : String) (t : ℚ)
    (target : String) : CalmTracker P (tr.expireNamed n t target) := by
  unfold expireNamed
  have h1 : CalmTracker P { tr with buffs := endEffect tr.buffs n t } :=
    ⟨h.agree, given_endEffect h.buffs n t, h.debuffs⟩
  exact calm_setDebuffs h1 _ (given_endEffect (given_lookup h1 target) n t)

theorem calm_addBuff {tr : StatusEffectTracker} (h : CalmTracker P tr) (t : ℚ) {a : SkillCore} (ha : P a)
    {m : SkillModifier} {s : StatusEffectSpec} (hs : a.getBuffSpec m = .ok (some s)) :
    CalmTracker P (tr.addBuff t a.name s) := by
  unfold addBuff
  simp only
  have h1 : CalmTracker P (if s.clearAllStatusEffects = true then { tr with buffs := [] } else tr) := by
    split_ifs
    · exact ⟨h.agree, given_nil, h.debuffs⟩
    · exact h
  generalize (if s.clearAllStatusEffects = true then { tr with buffs := [] } else tr) = tr1 at h1
  have h2 : CalmTracker P { tr1 with buffs := addEffect tr1.buffs t a.name s } :=
    ⟨h1.agree, given_addEffect h1.buffs t ha hs, h1.debuffs⟩
  generalize ({ tr1 with buffs := addEffect tr1.buffs t a.name s } : StatusEffectTracker) = tr2 at h2
  generalize s.expiresStatusEffects = names
  induction names generalizing tr2 with
  | nil => exact h2
  | cons a l ih => exact ih _ (calm_expireNamed h2 a t _)

theorem calm_addDebuff {tr : StatusEffectTracker} (h : CalmTracker P tr) (t : ℚ) {a : SkillCore} (ha : P a)
    {m : SkillModifier} {s : StatusEffectSpec} (hs : a.getDebuffSpec m = .ok (some s)) (target : String) :
    CalmTracker P (tr.addDebuff t a.name s target) := by
  unfold addDebuff
  simp only
  have h2 := calm_setDebuffs h target (given_addEffect (given_lookup h target) t ha hs)
  generalize tr.setDebuffs target (addEffect (tr.lookupDebuffs target) t a.name s) = tr2 at h2
  generalize s.expiresStatusEffects = names
  induction names generalizing tr2 with
  | nil => exact h2
  | cons a l ih => exact ih _ (calm_expireNamed h2 a t _)

theorem add_total {tr : StatusEffectTracker} (h : CalmTracker P tr) {skill : SkillCore} (hP : P skill)
    {m : SkillModifier} (hb : ∃ r, skill.getBuffSpec m = .ok r) (hd : ∃ r, skill.getDebuffSpec m = .ok r)
    (t : ℚ) (targets : List String) :
    ∃ tr', tr.add t skill m targets = .ok tr' ∧ CalmTracker P tr' := by
  obtain ⟨b, hb⟩ := hb
  obtain ⟨d, hd⟩ := hd
  unfold add
  rw [hb, hd]
  refine ⟨_, rfl, ?_⟩
  have key : ∀ tr1, CalmTracker P tr1 → CalmTracker P (match (generalizing := false) d with
      | none => tr1
      | some spec => targets.foldl (fun tr target => tr.addDebuff t skill.name spec target) tr1) := by
    cases d with
    | none => exact fun tr1 h1 => h1
    | some s =>
      induction targets with
      | nil => exact fun tr1 h1 => h1
      | cons a l ih => exact fun tr1 h1 => ih _ (calm_addDebuff h1 t hP hd a)
  cases b with
  | none => exact key _ h
  | some s => exact key _ (calm_addBuff h t hP hb)

/-! ### Asking for effects -/

theorem specsOf_fst_sublist (es : Effects) (names : List String) :
    ((specsOf es names).map Prod.fst).Sublist names := by
  induction names with
  | nil => exact List.Sublist.refl _
  | cons n names ih =>
    unfold specsOf
    rw [List.filterMap_cons]
    cases Dict.get? es n with
    | none => exact ih.cons _
    | some e => exact ih.cons_cons _

theorem mem_specsOf {es : Effects} {names : List String} {p : String × StatusEffectSpec}
    (h : p ∈ specsOf es names) : p.1 ∈ names ∧ ∃ e, (p.1, e) ∈ es ∧ e.spec = p.2 := by
  obtain ⟨n, hn, he⟩ := List.mem_filterMap.1 h
  cases hg : Dict.get? es n with
  | none => simp [hg] at he
  | some e =>
    simp only [hg, Option.map_some, Option.some.injEq] at he
    subst he
    exact ⟨hn, e, Dict.mem_of_get? hg, rfl⟩

/-- The contributing effects come from skills in `P` and may affect the skill. -/
theorem given_spec {es : Effects} (h : Given get P es) {priority : List String} {t : ℚ} {skill : SkillCore}
    {p : String × StatusEffectSpec}
    (hp : p ∈ specsOf es (contribNames priority t es skill.statusEffectDenylist skill.name)) :
    ∃ a m, P a ∧ a.name = p.1 ∧ get a m = .ok (some p.2) ∧ Allowed skill a.name p.2 := by
  obtain ⟨h1, e, h2, h3⟩ := mem_specsOf hp
  obtain ⟨a, m, ha, hn, hg⟩ := h.2 _ h2
  obtain ⟨⟨e', h4, -, h5⟩, -⟩ := (mem_contribNames h.1).1 h1
  have := ((mem_iff_get? h.1).1 h2).symm.trans ((mem_iff_get? h.1).1 h4)
  cases this
  have hn : a.name = p.1 := hn
  refine ⟨a, m, ha, hn, ?_, ?_⟩
  · rw [← h3]; exact hg
  · rw [hn, ← h3]; exact h5

theorem forcedFrom_some {f : StatusEffectSpec → Forced} (hf : ∀ s, f s ≠ .default → Forces s)
    {es : Effects} (h : Given get P es) (ho : OneForces get P) (priority : List String) (t : ℚ)
    (skill : SkillCore) :
    ∃ c, forcedFrom f .default ((specsOf es
      (contribNames priority t es skill.statusEffectDenylist skill.name)).map Prod.snd) = some c := by
  have hs : ∀ p ∈ specsOf es (contribNames priority t es skill.statusEffectDenylist skill.name), _ :=
    fun p hp => given_spec h hp
  have hn := (specsOf_fst_sublist es (contribNames priority t es skill.statusEffectDenylist skill.name)).nodup
    ((contribNames_sublist _ _ _ _ _).nodup h.1)
  generalize specsOf es (contribNames priority t es skill.statusEffectDenylist skill.name) = L at hs hn
  unfold forcedFrom
  rw [List.filter_map]
  have hn' := (List.Sublist.map Prod.fst (List.filter_sublist (p := (fun s => decide (f s ≠ .default)) ∘
    Prod.snd) (l := L))).nodup hn
  have hs' : ∀ p ∈ L.filter ((fun s => decide (f s ≠ .default)) ∘ Prod.snd), f p.2 ≠ .default ∧
      ∃ a m, P a ∧ a.name = p.1 ∧ get a m = .ok (some p.2) ∧ Allowed skill a.name p.2 := by
    intro p hp
    obtain ⟨h1, h2⟩ := List.mem_filter.1 hp
    exact ⟨of_decide_eq_true h2, hs p h1⟩
  cases hL : L.filter ((fun s => decide (f s ≠ .default)) ∘ Prod.snd) with
  | nil => exact ⟨_, rfl⟩
  | cons p l =>
    cases l with
    | nil => exact ⟨_, rfl⟩
    | cons q l =>
      exfalso
      rw [hL] at hs' hn'
      obtain ⟨f1, a, m, ha, hna, hga, hala⟩ := hs' p (by simp)
      obtain ⟨f2, b, m', hb, hnb, hgb, halb⟩ := hs' q (by simp)
      have := ho a b m m' p.2 q.2 skill ha hb hga hgb (hf _ f1) (hf _ f2) hala halb
      rw [hna, hnb] at this
      simp [this] at hn'

theorem compileEffects_total {es : Effects} (h : Given get P es) (ho : OneForces get P)
    (priority : List String) (t : ℚ) (skill : SkillCore) :
    ∃ agg c es', compileEffects priority t es skill.statusEffectDenylist skill.name = .ok (agg, c, es') ∧
      Given get P es' := by
  obtain ⟨c, hc⟩ := forcedFrom_some (f := (·.guaranteedCrit)) (fun s => Or.inl) h ho priority t skill
  obtain ⟨d, hd⟩ := forcedFrom_some (f := (·.guaranteedDh)) (fun s => Or.inr) h ho priority t skill
  obtain ⟨⟨agg, cond, es'⟩, hr⟩ := compileEffects_ok_of h.1 hc hd
  refine ⟨agg, cond, es', hr, ?_⟩
  obtain ⟨-, -, -, -, -, -, hk, hg⟩ := compileEffects_spec h.1 hr
  have hn : (Dict.keys es').Nodup := hk ▸ h.1
  refine ⟨hn, fun kv hkv => ?_⟩
  have h1 := (mem_iff_get? (k := kv.1) (v := kv.2) hn).1 hkv
  rw [hg] at h1
  split_ifs at h1
  · cases h2 : Dict.get? es kv.1 with
    | none => simp [h2] at h1
    | some e =>
      simp only [h2, Option.map_some, Option.some.injEq] at h1
      rw [← h1]
      exact h.2 _ (Dict.mem_of_get? h2)
  · exact h.2 _ (Dict.mem_of_get? h1)

theorem compileBuffs_total {tr : StatusEffectTracker} (h : CalmTracker P tr) (t : ℚ) (s : SkillCore) :
    ∃ r tr', tr.compileBuffs t s = .ok (r, tr') ∧ CalmTracker P tr' := by
  obtain ⟨agg, c, es, h1, h2⟩ := compileEffects_total h.buffs h.agree.buffs tr.priority t s
  unfold compileBuffs
  rw [h1]
  exact ⟨_, _, rfl, h.agree, h2, h.debuffs⟩

theorem compileDebuffs_total {tr : StatusEffectTracker} (h : CalmTracker P tr) (t : ℚ) (s : SkillCore)
    (target : String) : ∃ r tr', tr.compileDebuffs t s target = .ok (r, tr') ∧ CalmTracker P tr' := by
  obtain ⟨agg, c, es, h1, h2⟩ := compileEffects_total (given_lookup h target) h.agree.debuffs tr.priority t s
  unfold compileDebuffs
  rw [h1]
  exact ⟨_, _, rfl, calm_setDebuffs h target h2⟩

end StatusEffectTracker

/-! ## Gauges -/

/-- The tracker has exactly the given gauges, all of them configured. -/
def HasGauges (tr : JobResourceTracker) (gauges : List String) : Prop :=
  Dict.keys tr.resources = gauges ∧ ∀ g ∈ gauges, g ∈ Dict.keys tr.configs

theorem Spec.Harmless.mono {gauges : List String} {m₀ m₁ : SkillModifier} {skill : SkillCore}
    (h : Harmless gauges m₀ skill) (hm : m₀.withCondition ⊆ m₁.withCondition) : Harmless gauges m₁ skill :=
  ⟨fun m h' => h.damage m (hm.trans h'), fun m h' => h.buff m (hm.trans h'),
    fun m h' => h.debuff m (hm.trans h'), fun m h' => h.gauge m (hm.trans h'),
    fun m h' => h.combo m (hm.trans h')⟩

namespace JobResourceTracker

theorem compile_total {tr : JobResourceTracker} {gauges : List String} (h : HasGauges tr gauges)
    (t : ℚ) (sn : String) : ∃ c tr', tr.compile t sn = .ok (c, tr') ∧ HasGauges tr' gauges := by
  have key : ∀ (l : List String) (res : List (String × ℤ × String)) (tr : JobResourceTracker),
      HasGauges tr gauges → (∀ g ∈ l, g ∈ gauges) →
      ∃ r tr', l.foldlM (compileStep t sn) (res, tr) = .ok (r, tr') ∧ HasGauges tr' gauges := by
    intro l
    induction l with
    | nil => intro res tr h0 _; exact ⟨res, tr, rfl, h0⟩
    | cons a l ih =>
      intro res tr h0 hl
      have ha := hl a (by simp)
      have step : ∃ r tr', compileStep t sn (res, tr) a = .ok (r, tr') ∧ HasGauges tr' gauges := by
        obtain ⟨cfg, hc⟩ := Option.isSome_iff_exists.1 (Dict.get?_isSome.2 (h0.2 a ha))
        obtain ⟨e, he⟩ := Option.isSome_iff_exists.1 (Dict.get?_isSome.2 (h0.1 ▸ ha))
        unfold compileStep
        simp only [Dict.get_ok.2 hc, Dict.get_ok.2 he, Py.ok_bind]
        have h1 : HasGauges { tr with resources := Dict.set tr.resources a (sortBy (·.start) e) } gauges := by
          refine ⟨?_, h0.2⟩
          simp only
          rw [Dict.keys_set, if_pos (h0.1 ▸ ha), h0.1]
        split_ifs
        · exact ⟨_, _, rfl, h1⟩
        · exact ⟨_, _, rfl, h1⟩
        · exact ⟨_, _, rfl, h0⟩
      obtain ⟨r1, tr1, h1, h2⟩ := step
      obtain ⟨r2, tr2, h3, h4⟩ := ih r1 tr1 h2 (fun g hg => hl g (List.mem_cons_of_mem _ hg))
      exact ⟨r2, tr2, by rw [Py.foldlM_cons, h1, Py.ok_bind, h3], h4⟩
  obtain ⟨r, tr', h1, h2⟩ := key (Dict.keys tr.resources) [] tr h (by rw [h.1]; exact fun _ => id)
  refine ⟨strJoin ", " (r.map (fun r => r.2.2)), tr', ?_, h2⟩
  unfold compile compileReports
  rw [h1]
  rfl

theorem addResource_total {tr : JobResourceTracker} {gauges : List String} (h : HasGauges tr gauges)
    {skill : SkillCore} {m₀ m : SkillModifier} (hh : Harmless gauges m₀ skill)
    (hm : m₀.withCondition ⊆ m.withCondition) (t : ℚ) :
    ∃ tr', tr.addResource t skill m = .ok tr' ∧ HasGauges tr' gauges := by
  obtain ⟨l, hl, hl'⟩ := hh.gauge m hm
  unfold addResource
  rw [hl, Py.ok_bind]
  clear hl
  induction l generalizing tr with
  | nil => exact ⟨tr, rfl, h⟩
  | cons s l ih =>
    have step : ∃ tr', addSpec t tr s = .ok tr' ∧ HasGauges tr' gauges := by
      unfold addSpec
      split_ifs with hc
      · refine ⟨_, rfl, ?_, h.2⟩
        rw [← h.1]
        simp [clearResources, Dict.keys, Function.comp_def]
      · have hg := (hl' s (by simp)).resolve_left hc
        obtain ⟨e, he⟩ := Option.isSome_iff_exists.1 (Dict.get?_isSome.2 (h.1 ▸ hg))
        rw [Dict.get_ok.2 he]
        refine ⟨_, rfl, ?_, h.2⟩
        simp only
        rw [Dict.keys_set, if_pos (h.1 ▸ hg), h.1]
    obtain ⟨tr1, h1, h2⟩ := step
    obtain ⟨tr2, h3, h4⟩ := ih h2 (fun s hs => hl' s (List.mem_cons_of_mem _ hs))
    exact ⟨tr2, by rw [Py.foldlM_cons, h1, Py.ok_bind, h3], h4⟩

end JobResourceTracker

end Ama
