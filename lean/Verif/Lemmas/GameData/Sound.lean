import Verif.Lemmas.GameData.Check
import Verif.Props.Conditions

/-!
# What a passed check says about skills
-/

namespace Ama.GameData

open Spec

/-- What the check says of a skill or of the skill of a follow-up. -/
structure CoreOk (x : Exempt) (n : Names) (s : SkillCore) : Prop where
  answers : Answers s
  sane : SaneSkill s
  whole : ∀ m ts, s.getTimingSpec m = .ok (some ts) → WholeTiming ts
  effects : WholeEffects s
  damage : ∀ m d, s.getDamageSpec m = .ok (some d) → DamageOk s.name d
  forces : ∀ m e, s.getBuffSpec m = .ok (some e) → Forces e → (e.guaranteedCrit ≠ .forceNo ∧
    e.guaranteedDh ≠ .forceNo) ∧ ∃ l, e.skillAllowlist = some l ∧ (∀ a ∈ l, a ∉ neverHits) ∧
    ((s.name = "Inner Release" ∧ ∀ a ∈ l, a ∈ innerRelease) ∨
      (s.name = "Life Surge" ∧ ∀ a ∈ l, a ∉ innerRelease))
  noForces : ∀ m e, s.getDebuffSpec m = .ok (some e) → ¬ Forces e
  fast : ∀ m e, s.getBuffSpec m = .ok (some e) → e.autoAttackDelayReduction = 0 ∨
    ∃ nr ∈ fastEffects, nr.1 = s.name ∧ e.autoAttackDelayReduction ≤ nr.2
  notFast : ∀ m e, s.getDebuffSpec m = .ok (some e) → e.autoAttackDelayReduction = 0
  ends : ∀ m e, s.getBuffSpec m = .ok (some e) → ∀ a ∈ e.expiresStatusEffects,
    a ∉ debuffNames ∧ (a ∈ x.gone ∨ a ∈ n.buffs)
  acts : ∀ m e, (s.getBuffSpec m = .ok (some e) ∨ s.getDebuffSpec m = .ok (some e)) → Idle e →
    s.name ∈ x.unread ∨ (e.addToSkillModifierCondition = true ∧ n.reacts s.name e = true)
  debuff : ∀ m e, s.getDebuffSpec m = .ok (some e) → s.name ∈ debuffNames ∧ e.expiresStatusEffects = []
  quiet : ∀ m e, s.getDebuffSpec m = .ok (some e) → e.addToSkillModifierCondition = false ∧ e.numUses = ⊤ ∧
    e.maxNumUses = ⊤ ∧ e.hasteTimeReduction = 0
  gauges : ∀ m specs, s.getJobResourceSpec m = .ok specs → ∀ r ∈ specs, r.clearAllResourcesOnly = false →
    r.name ∈ n.resources
  combos : s.name ∉ x.badCombo → ∀ m specs, s.getComboSpec m = .ok specs → ∀ c ∈ specs,
    ∀ a ∈ c.comboActions, a ∈ n.skills
  useful : s.name ∉ x.useless → ∀ m e, (s.getBuffSpec m = .ok (some e) ∨ s.getDebuffSpec m = .ok (some e)) →
    ∀ l, e.skillAllowlist = some l → ∃ a ∈ l, a ∈ n.skills ∨ a ∈ n.followUps

/-- What the check says of a skill. -/
structure SkillOk (x : Exempt) (n : Names) (s : Skill) : Prop extends CoreOk x n s.toSkillCore where
  timed : ∀ m, ∃ ts, s.getTimingSpec m = .ok (some ts)
  followUps : s.name ∉ x.noDefault → ∀ m, ∃ fs, s.getFollowUpSkills m = .ok fs
  followUp : ∀ m fs, s.getFollowUpSkills m = .ok fs → ∀ f ∈ fs, CoreOk x n f.skill
  drop : ∀ d, s.aoeDropoff = some d → (s.name ∉ x.lost ∧ DropsOff s.toSkillCore d) ∨
    (s.name ∈ x.lost ∧ ∃ spec, ∀ m, s.getDamageSpec m = .ok (some spec))
  told : s.name ∉ x.untold → ∀ c, MindsAny s c → n.known = true ∧
    ∀ p ∈ n.settings, TellsGauge p.1 p.2 c → s.name ∈ p.2.skillAllowlist

theorem all_some {α : Type} {l : List (Option α)} {p : α → Bool} (h : l.all (fun o => o.all p) = true)
    {a : α} (ha : some a ∈ l) : p a = true := by
  have := List.all_eq_true.1 h _ ha
  simpa using this

theorem knownGauges_iff {n : Names} {l : List JobResourceSpec} (h : knownGauges n l = true) :
    ∀ r ∈ l, r.clearAllResourcesOnly = false → r.name ∈ n.resources := by
  intro r hr hc
  have := List.all_eq_true.1 h r hr
  simpa [hc] using this

theorem knownCombos_iff {n : Names} {l : List ComboSpec} (h : knownCombos n l = true) :
    ∀ c ∈ l, ∀ a ∈ c.comboActions, a ∈ n.skills := by
  intro c hc a ha
  have := List.all_eq_true.1 (List.all_eq_true.1 h c hc) a ha
  simpa using this

theorem useful_iff {n : Names} {e : StatusEffectSpec} (h : useful n e = true) {l : List String}
    (hl : e.skillAllowlist = some l) : ∃ a ∈ l, a ∈ n.skills ∨ a ∈ n.followUps := by
  unfold useful at h
  rw [hl] at h
  simpa using h

theorem fewForce_of {a : String} {e : StatusEffectSpec} (h : fewForce a e = true) (hf : Forces e) :
    (e.guaranteedCrit ≠ .forceNo ∧ e.guaranteedDh ≠ .forceNo) ∧
    ∃ l, e.skillAllowlist = some l ∧ (∀ b ∈ l, b ∉ neverHits) ∧ ((a = "Inner Release" ∧ ∀ b ∈ l, b ∈ innerRelease) ∨
      (a = "Life Surge" ∧ ∀ b ∈ l, b ∉ innerRelease)) := by
  unfold fewForce at h
  rw [Bool.or_eq_true, noForce_iff] at h
  rcases h with h | h
  · exact absurd hf h
  · rw [Bool.and_eq_true, Bool.and_eq_true, notNo_iff, notNo_iff] at h
    obtain ⟨h0, h⟩ := h
    refine ⟨h0, ?_⟩
    split at h
    · cases h
    · rename_i l hl
      simp only [Bool.or_eq_true, Bool.and_eq_true, decide_eq_true_eq, List.all_eq_true, Bool.not_eq_true',
        List.contains_iff_mem] at h
      obtain ⟨h1, h⟩ := h
      refine ⟨l, hl, fun b hb => by simpa using h1 b hb, ?_⟩
      rcases h with h | h
      · exact .inl h
      · exact .inr ⟨h.1, fun b hb => by simpa using h.2 b hb⟩

theorem idle_iff {e : StatusEffectSpec} : idle e = true ↔ Idle e := by
  simp only [idle, Idle, Bool.and_eq_true, decide_eq_true_eq]

theorem acts_of {x : Exempt} {n : Names} {a : String} {e : StatusEffectSpec} (h : acts x n a e = true)
    (hi : Idle e) : a ∈ x.unread ∨ (e.addToSkillModifierCondition = true ∧ n.reacts a e = true) := by
  unfold acts at h
  rw [idle_iff.2 hi] at h
  simpa using h

theorem coreOk_of {x : Exempt} {n : Names} {s : SkillCore} (h : checkCore x n s = true) :
    CoreOk x n s := by
  simp only [checkCore, Bool.and_eq_true, Bool.or_eq_true, List.contains_iff_mem] at h
  obtain ⟨⟨a1, a2, a3, a4, a5, a6, a7⟩, ⟨b1, b2, b3, b4⟩, ⟨w1, w2, w3⟩, c1, c2, c3⟩ := h
  refine ⟨⟨fun m => Cond.lookup_answers a1 _, fun m => Cond.lookup_answers a2 _,
    fun m => Cond.lookup_answers a3 _, fun m => Cond.lookup_answers a4 _, fun m => ?_,
    fun m => Cond.lookupTuple_answers a5 _, fun m => Cond.lookupTuple_answers a6 _⟩,
    ⟨fun m y hy => ?_, fun m y hy => ?_, fun m y hy => ?_, fun m y hy => ?_⟩,
    fun m ts hts => wholeTiming_iff.1 (all_some w1 (Cond.lookup_mem hts)), ?_, ?_, ?_, ?_, ?_, ?_, ?_, ?_, ?_, ?_,
    fun m specs hs => ?_, fun hx m specs hs => ?_, fun hx m e he l hl => ?_⟩
  · unfold SkillCore.getChannelingSpec
    split at a7
    · rename_i a ha
      rw [ha]
      exact ⟨a, rfl⟩
    · cases a7
  · exact saneDamage_iff.1 (Bool.and_eq_true _ _ ▸ all_some b1 (Cond.lookup_mem hy)).1
  · exact saneTiming_iff.1 (all_some b2 (Cond.lookup_mem hy))
  · exact saneEffect_iff.1 (all_some b3 (Cond.lookup_mem hy))
  · exact saneEffect_iff.1 (all_some b4 (Cond.lookup_mem hy))
  · rintro m e (he | he)
    · have := all_some w2 (Cond.lookup_mem he)
      simp only [checkBuff, Bool.and_eq_true] at this
      exact wholeEffect_of this.1
    · have := all_some w3 (Cond.lookup_mem he)
      simp only [checkDebuff, Bool.and_eq_true] at this
      exact wholeEffect_of this.1
  · intro m d hd
    exact checkDamage_iff.1 (Bool.and_eq_true _ _ ▸ all_some b1 (Cond.lookup_mem hd)).2
  · intro m e he hf
    have := all_some w2 (Cond.lookup_mem he)
    simp only [checkBuff, Bool.and_eq_true] at this
    exact fewForce_of this.2.1 hf
  · intro m e he
    have := all_some w3 (Cond.lookup_mem he)
    simp only [checkDebuff, Bool.and_eq_true] at this
    exact noForce_iff.1 this.2.1
  · intro m e he
    have := all_some w2 (Cond.lookup_mem he)
    simp only [checkBuff, Bool.and_eq_true] at this
    have := this.2.2.1
    unfold GameData.fast at this
    simp only [Bool.or_eq_true, decide_eq_true_eq, List.any_eq_true, Bool.and_eq_true] at this
    exact this
  · intro m e he
    have := all_some w3 (Cond.lookup_mem he)
    simp only [checkDebuff, Bool.and_eq_true, decide_eq_true_eq] at this
    exact this.2.2.1
  · intro m e he a ha
    have := all_some w2 (Cond.lookup_mem he)
    simp only [checkBuff, Bool.and_eq_true] at this
    have := List.all_eq_true.1 this.2.2.2.2 a ha
    simpa using this
  · rintro m e (he | he) hi
    · have := all_some w2 (Cond.lookup_mem he)
      simp only [checkBuff, Bool.and_eq_true] at this
      exact acts_of this.2.2.2.1 hi
    · have := all_some w3 (Cond.lookup_mem he)
      simp only [checkDebuff, Bool.and_eq_true] at this
      exact acts_of this.2.2.2.1 hi
  · intro m e he
    have := all_some w3 (Cond.lookup_mem he)
    simp only [checkDebuff, Bool.and_eq_true] at this
    simpa using this.2.2.2.2.1
  · intro m e he
    have := all_some w3 (Cond.lookup_mem he)
    simp only [checkDebuff, quietDebuff, Bool.and_eq_true, decide_eq_true_eq] at this
    exact this.2.2.2.2.2
  · rcases Cond.lookupTuple_mem hs with h | rfl
    · exact knownGauges_iff (List.all_eq_true.1 c1 _ h)
    · simp
  · rcases c2 with h | c2
    · exact absurd h hx
    · rcases Cond.lookupTuple_mem hs with h | rfl
      · exact knownCombos_iff (List.all_eq_true.1 c2 _ h)
      · simp
  · rcases c3 with h | ⟨c3, c4⟩
    · exact absurd h hx
    · rcases he with he | he
      · exact useful_iff (all_some c3 (Cond.lookup_mem he)) hl
      · exact useful_iff (all_some c4 (Cond.lookup_mem he)) hl

theorem all_canonicalize {α : Type} {r : RawCond α} {p : α → Bool} (h : r.values.all p = true) :
    r.canonicalize.values.all p = true :=
  List.all_eq_true.2 fun a ha => List.all_eq_true.1 h a (RawCond.values_canonicalize ha)

/-- Drop-off within [0, 1] keeps damage sane. -/
theorem dropoff_ok {r : RawSkill} (h0 : r.damageSpec.answers = true)
    (h1 : r.damageSpec.values.all (fun o => o.all (fun d => saneDamage d && checkDamage r.name d)) = true)
    (h2 : r.aoeDropoff.all (fun d => decide (0 ≤ d) && (decide (d ≤ 1) &&
      r.damageSpec.values.all Option.isSome)) = true) :
    ∃ d, processAoeDropoff r.aoeDropoff r.damageSpec = .ok d ∧ d.answers = true ∧
      d.values.all (fun o => o.all (fun d => saneDamage d && checkDamage r.name d)) = true := by
  cases ha : r.aoeDropoff with
  | none => exact ⟨_, rfl, h0, h1⟩
  | some x =>
    rw [ha] at h2
    simp only [Option.all_some, Bool.and_eq_true, decide_eq_true_eq] at h2
    obtain ⟨h2, h3, h4⟩ := h2
    cases hd : r.damageSpec with
    | single o =>
      rw [hd] at h1 h4
      cases o with
      | none => simp [RawCond.values] at h4
      | some s => exact ⟨_, rfl, rfl, h1⟩
    | dict d =>
      rw [hd] at h0 h1 h4
      simp only [RawCond.answers, decide_eq_true_eq] at h0
      have hP : ∀ s, SaneDamage s ∧ DamageOk r.name s →
          SaneDamage { s with potency := (1 - x) * s.potency } ∧
            DamageOk r.name { s with potency := (1 - x) * s.potency } := by
        rintro s ⟨hs, hd⟩
        exact ⟨⟨mul_nonneg (by linarith) hs.potency, hs.pet, hs.mult, hs.trait, hs.job, hs.least⟩, hd⟩
      obtain ⟨d', e1, e2, e3⟩ := dropoffDict_ok (x := x)
        (P := fun s => SaneDamage s ∧ DamageOk r.name s) hP (d := d) (by
        intro kv hkv
        have hv : kv.2 ∈ (RawCond.dict d).values := List.mem_map.2 ⟨kv, hkv, rfl⟩
        obtain ⟨s, hs⟩ := Option.isSome_iff_exists.1 (List.all_eq_true.1 h4 _ hv)
        rw [hs] at hv
        have := all_some h1 hv
        rw [Bool.and_eq_true, saneDamage_iff, checkDamage_iff] at this
        exact ⟨s, hs, this⟩)
      refine ⟨.dict d', by simp [processAoeDropoff, e1], ?_, List.all_eq_true.2 fun o ho => ?_⟩
      · simpa [RawCond.answers] using e2 _ h0
      · obtain ⟨kv, hkv, rfl⟩ := List.mem_map.1 ho
        obtain ⟨s, hs, hP⟩ := e3 kv hkv
        rw [hs]
        rw [← saneDamage_iff, ← checkDamage_iff] at hP
        simpa using hP

theorem dropOk_of {x : Exempt} {r : RawSkill} {s : Skill} (hs : mkSkill r = .ok s)
    (hv : r.aoeDropoff.all (fun d => decide (0 ≤ d) && (decide (d ≤ 1) &&
      r.damageSpec.values.all Option.isSome)) = true)
    (h : dropOk x r = true) {d : ℚ} (hd : r.aoeDropoff = some d) :
    (r.name ∉ x.lost ∧ DropsOff s.toSkillCore d) ∨
      (r.name ∈ x.lost ∧ ∃ spec, ∀ m, s.getDamageSpec m = .ok (some spec)) := by
  rw [hd] at hv
  simp only [Option.all_some, Bool.and_eq_true] at hv
  obtain ⟨_, _, hv⟩ := hv
  unfold dropOk at h
  rw [hd] at h
  simp only at h
  split at h
  · rename_i o ho
    rw [ho] at hv
    cases o with
    | none => simp [RawCond.values] at hv
    | some spec =>
      exact Or.inr ⟨by simpa using h, spec, fun m => C07_single_spec_refuted r s hs spec ho d hd m⟩
  · rename_i t ht
    rw [ht] at hv
    simp only [Bool.and_eq_true, Bool.not_eq_true', decide_eq_true_eq, List.all_eq_true] at h
    obtain ⟨h1, h2, h3⟩ := h
    left
    refine ⟨by simpa using h1, ?_⟩
    have hl : ∃ l : List (String × DamageSpec), t = l.map (fun ks => (ks.1, some ks.2)) := by
      have hv' : ∀ kv ∈ t, kv.2.isSome = true := fun kv hkv =>
        List.all_eq_true.1 hv kv.2 (List.mem_map.2 ⟨kv, hkv, rfl⟩)
      clear * - hv'
      induction t with
      | nil => exact ⟨[], rfl⟩
      | cons kv t ih =>
        obtain ⟨l, hl⟩ := ih (fun kv hkv => hv' kv (by simp [hkv]))
        obtain ⟨v, hv⟩ := Option.isSome_iff_exists.1 (hv' kv (by simp))
        exact ⟨(kv.1, v) :: l, by rw [hl, List.map_cons, ← hv]⟩
    obtain ⟨l, rfl⟩ := hl
    intro m mt n spec hn2 hn9 hm hmt hspec
    refine C07_dropoff_partial r s hs d hd l ht ?_ ?_ ?_ m mt hm n hn2 hn9 hmt spec hspec
    · simpa [DistinctVariants, List.map_map, Function.comp_def] using h2
    · intro kv hkv
      exact (h3 _ (List.mem_map.2 ⟨kv, hkv, rfl⟩)).1
    · intro kv hkv n hn2 hn9
      exact (h3 _ (List.mem_map.2 ⟨kv, hkv, rfl⟩)).2 n (by
        simp only [List.mem_cons, List.not_mem_nil, or_false]
        omega)

theorem mem_condsOf {a k : String} : a ∈ condsOf k ↔ a ∈ Utils.canonicalizeCondition k := by
  unfold condsOf Utils.canonicalizeCondition
  split_ifs
  · simp
  · rw [List.mem_toFinset]

theorem keyed_canonicalize {α : Type} {r : RawCond α} {a : String} :
    Keyed r.canonicalize a ↔ ∃ k ∈ rawKeys r, a ∈ condsOf k := by
  cases r with
  | single v => simp [Keyed, RawCond.canonicalize, rawKeys]
  | dict d =>
    have : Keyed (RawCond.dict d).canonicalize a ↔ ∃ K ∈ Dict.keys (canonicalizeDict d), a ∈ K := by
      simp only [Keyed, RawCond.canonicalize, Cond.dict.injEq, exists_eq_left', Dict.keys]
      constructor
      · rintro ⟨kv, h1, h2⟩
        exact ⟨kv.1, List.mem_map.2 ⟨kv, h1, rfl⟩, h2⟩
      · rintro ⟨K, hK, h2⟩
        obtain ⟨kv, h1, rfl⟩ := List.mem_map.1 hK
        exact ⟨kv, h1, h2⟩
    rw [this]
    simp only [mem_keys_canonicalizeDict, mem_condsOf, rawKeys]
    constructor
    · rintro ⟨K, ⟨k, hk, rfl⟩, h⟩
      exact ⟨k, hk, h⟩
    · rintro ⟨k, hk, h⟩
      exact ⟨_, ⟨k, hk, rfl⟩, h⟩

/-- The keys that drop-off adds name the same conditions, and a target. -/
theorem dropoffDict_conds {x : ℚ} {d d' : Dict String (Option DamageSpec)}
    (h : processAoeDropoffDict x d = .ok d') : ∀ k ∈ Dict.keys d', ∀ a ∈ Utils.canonicalizeCondition k,
      (∃ k' ∈ Dict.keys d, a ∈ Utils.canonicalizeCondition k') ∨ ∃ n ∈ dropTargets, a = targetCond n := by
  let P : Dict String (Option DamageSpec) → Prop := fun t => ∀ k ∈ Dict.keys t,
    ∀ a ∈ Utils.canonicalizeCondition k,
      (∃ k' ∈ Dict.keys d, a ∈ Utils.canonicalizeCondition k') ∨ ∃ n ∈ dropTargets, a = targetCond n
  have step : ∀ {key : String} {n : ℕ} {t t' : Dict String (Option DamageSpec)}, n ∈ dropTargets →
      key ∈ Dict.keys d → dropoffStep x key t n = .ok t' → P t → P t' := by
    intro key n t t' hn hkey h hP k hk a ha
    unfold dropoffStep at h
    obtain ⟨v, _, h⟩ := Py.bind_eq_ok.1 h
    cases v with
    | none => cases h
    | some spec =>
      cases h
      rw [Dict.mem_keys_set] at hk
      rcases hk with rfl | hk
      · rw [canonicalize_dropoffKey key hn, Finset.mem_insert] at ha
        rcases ha with rfl | ha
        · exact Or.inr ⟨n, hn, rfl⟩
        · exact Or.inl ⟨key, hkey, ha⟩
      · exact hP k hk a ha
  have h0 : P d := fun k hk a ha => Or.inl ⟨k, hk, ha⟩
  unfold processAoeDropoffDict at h
  have inner : ∀ (l : List ℕ) {key : String} {t t' : Dict String (Option DamageSpec)}, (∀ n ∈ l, n ∈ dropTargets) →
      key ∈ Dict.keys d → l.foldlM (dropoffStep x key) t = .ok t' → P t → P t' := by
    intro l
    induction l with
    | nil =>
      intro key t t' _ _ h hP
      cases h
      exact hP
    | cons n l ih =>
      intro key t t' hl hkey h hP
      rw [Py.foldlM_cons] at h
      obtain ⟨t1, h1, h⟩ := Py.bind_eq_ok.1 h
      exact ih (fun n hn => hl n (by simp [hn])) hkey h (step (hl n (by simp)) hkey h1 hP)
  have outer : ∀ (l : List String) {t t' : Dict String (Option DamageSpec)}, (∀ k ∈ l, k ∈ Dict.keys d) →
      l.foldlM (fun d key => [2, 3, 4, 5, 6, 7, 8, 9].foldlM (dropoffStep x key) d) t = .ok t' → P t → P t' := by
    intro l
    induction l with
    | nil =>
      intro t t' _ h hP
      cases h
      exact hP
    | cons k l ih =>
      intro t t' hl h hP
      rw [Py.foldlM_cons] at h
      obtain ⟨t1, h1, h⟩ := Py.bind_eq_ok.1 h
      exact ih (fun n hn => hl n (by simp [hn])) h (inner _ (fun n hn => hn) (hl k (by simp)) h1 hP)
  exact outer _ (fun k hk => hk) h h0

/-- A skill has variants for the conditions of its constructor's arguments. -/
theorem mindsAny_of {r : RawSkill} {s : Skill} (hs : mkSkill r = .ok s) {a : String} (h : a ∈ allConds r) :
    MindsAny s a := by
  obtain ⟨k, hk, ha⟩ := List.mem_flatMap.1 h
  unfold mkSkill at hs
  obtain ⟨d, hd, hs⟩ := Py.bind_eq_ok.1 hs
  cases hs
  have hdk : ∀ k ∈ rawKeys r.damageSpec, k ∈ rawKeys d := by
    unfold processAoeDropoff at hd
    split at hd
    · cases hd
      exact fun k hk => hk
    · split at hd
      · cases hd
      · cases hd
        rename_i heq
        rw [heq]
        exact fun k hk => hk
      · rename_i t heq
        obtain ⟨t', h1, h2⟩ := Py.bind_eq_ok.1 hd
        cases h2
        rw [heq]
        exact dropoffDict_keys h1
  simp only [List.mem_append] at hk
  unfold MindsAny Minds
  simp only [keyed_canonicalize]
  rcases hk with hk | hk | hk | hk | hk | hk | hk
  · exact .inl (.inl ⟨k, hdk k hk, ha⟩)
  · exact .inl (.inr (.inl ⟨k, hk, ha⟩))
  · exact .inl (.inr (.inr (.inl ⟨k, hk, ha⟩)))
  · exact .inl (.inr (.inr (.inr (.inl ⟨k, hk, ha⟩))))
  · exact .inl (.inr (.inr (.inr (.inr (.inl ⟨k, hk, ha⟩)))))
  · exact .inl (.inr (.inr (.inr (.inr (.inr ⟨k, hk, ha⟩)))))
  · exact .inr ⟨k, hk, ha⟩

/-- A skill has variants for no conditions but those of its constructor's arguments, and targets. -/
theorem of_mindsAny {r : RawSkill} {s : Skill} (hs : mkSkill r = .ok s) {a : String} (h : MindsAny s a) :
    a ∈ allConds r ++ dropConds r := by
  unfold mkSkill at hs
  obtain ⟨d, hd, hs⟩ := Py.bind_eq_ok.1 hs
  cases hs
  have hdk : (∃ k ∈ rawKeys d, a ∈ condsOf k) → (∃ k ∈ rawKeys r.damageSpec, a ∈ condsOf k) ∨ a ∈ dropConds r := by
    rintro ⟨k, hk, ha⟩
    unfold processAoeDropoff at hd
    split at hd
    · cases hd
      exact .inl ⟨k, hk, ha⟩
    · rename_i x hx
      split at hd
      · cases hd
      · cases hd
        cases hk
      · rename_i t heq
        obtain ⟨t', h1, h2⟩ := Py.bind_eq_ok.1 hd
        cases h2
        rcases dropoffDict_conds h1 k hk a (mem_condsOf.1 ha) with ⟨k', hk', h⟩ | ⟨n, hn, rfl⟩
        · rw [heq]
          exact .inl ⟨k', hk', mem_condsOf.2 h⟩
        · refine .inr ?_
          unfold dropConds
          rw [hx]
          exact List.mem_map.2 ⟨n, hn, rfl⟩
  unfold MindsAny Minds at h
  simp only [keyed_canonicalize] at h
  unfold allConds
  simp only [List.mem_append, List.mem_flatMap]
  rcases h with (h | ⟨k, hk, h⟩ | ⟨k, hk, h⟩ | ⟨k, hk, h⟩ | ⟨k, hk, h⟩ | ⟨k, hk, h⟩) | ⟨k, hk, h⟩
  · rcases hdk h with ⟨k, hk, h⟩ | h
    · exact .inl ⟨k, .inl hk, h⟩
    · exact .inr h
  · exact .inl ⟨k, .inr (.inl hk), h⟩
  · exact .inl ⟨k, .inr (.inr (.inl hk)), h⟩
  · exact .inl ⟨k, .inr (.inr (.inr (.inl hk))), h⟩
  · exact .inl ⟨k, .inr (.inr (.inr (.inr (.inl hk)))), h⟩
  · exact .inl ⟨k, .inr (.inr (.inr (.inr (.inr (.inl hk))))), h⟩
  · exact .inl ⟨k, .inr (.inr (.inr (.inr (.inr (.inr hk))))), h⟩

theorem tellsGauge_of {p : String × JobResourceSettings} {c : String} (h : TellsGauge p.1 p.2 c) :
    tellsGauge p c = true := by
  unfold TellsGauge at h
  unfold tellsGauge
  split_ifs at h ⊢ with hn
  · obtain ⟨n, rfl⟩ := h
    rw [List.isSuffixOf_iff_suffix]
    exact ⟨(toString n).toList, by simp [String.toList_append]⟩
  · simpa using h

theorem toldOk_of {x : Exempt} {n : Names} {r : RawSkill} (h : toldOk x n r = true) {s : Skill}
    (hs : mkSkill r = .ok s) (hx : r.name ∉ x.untold) (c : String) (hc : MindsAny s c) : n.known = true ∧
      ∀ p ∈ n.settings, TellsGauge p.1 p.2 c → r.name ∈ p.2.skillAllowlist := by
  have hc := of_mindsAny hs hc
  unfold toldOk at h
  rw [Bool.or_eq_true, List.contains_iff_mem] at h
  rcases h with h | h
  · exact absurd h hx
  · split_ifs at h with hk
    · refine ⟨hk, fun p hp ht => ?_⟩
      have := List.all_eq_true.1 h p hp
      rw [Bool.or_eq_true, List.contains_iff_mem] at this
      rcases this with h | h
      · exact h
      · have := List.all_eq_true.1 h c hc
        rw [tellsGauge_of ht] at this
        cases this
    · rw [List.isEmpty_iff] at h
      rw [h] at hc
      cases hc

theorem skillOk_of {x : Exempt} {n : Names} {r : RawSkill} (h : checkSkill x n r = true) :
    ∃ s, mkSkill r = .ok s ∧ s.name = r.name ∧ SkillOk x n s := by
  simp only [checkSkill, Bool.and_eq_true, Bool.or_eq_true, List.contains_iff_mem] at h
  obtain ⟨⟨a1, a2, a3, a4, a5, a6, a7⟩, ⟨b1, b2, b3, b4⟩, ⟨w1, w2, w3⟩, c1, c2, c3, d1, d2, d3, d4, d5⟩ := h
  obtain ⟨d, e1, e2, e3⟩ := dropoff_ok a1 b1 d1
  have hmk : ∀ s, mkSkill r = .ok s → ∀ d, r.aoeDropoff = some d →
      (r.name ∉ x.lost ∧ DropsOff s.toSkillCore d) ∨
        (r.name ∈ x.lost ∧ ∃ spec, ∀ m, s.getDamageSpec m = .ok (some spec)) :=
    fun s hs d hd => dropOk_of hs d1 d4 hd
  have htold := fun s hs => toldOk_of (s := s) d5 hs
  refine ⟨_, by unfold mkSkill; rw [e1]; rfl, rfl, ?_⟩
  have b2' : r.timingSpec.values.all (fun o => o.all saneTiming) = true :=
    List.all_eq_true.2 fun o ho => by
      have := List.all_eq_true.1 b2 o ho
      cases o with
      | none => rfl
      | some t => simpa using this
  have core : CoreOk x n ((SkillCore.mk r.name d.canonicalize r.timingSpec.canonicalize
      r.buffSpec.canonicalize r.debuffSpec.canonicalize r.channelingSpec r.jobResourceSpec.canonicalize
      r.comboSpec.canonicalize r.statusEffectDenylist r.isGCD r.ignoredConditionsForBonusPotency
      r.jobResourcesSnapshot r.hasAoe r.aoeDropoff r.offClassDefaultCondition)) := by
    apply coreOk_of
    simp only [checkCore, Bool.and_eq_true, Bool.or_eq_true, List.contains_iff_mem]
    exact ⟨⟨RawCond.answers_canonicalize e2, RawCond.answers_canonicalize a2,
      RawCond.answers_canonicalize a3, RawCond.answers_canonicalize a4, RawCond.answers_canonicalize a5,
      RawCond.answers_canonicalize a6, a7⟩,
      ⟨all_canonicalize e3, all_canonicalize b2', all_canonicalize b3, all_canonicalize b4⟩,
      ⟨all_canonicalize w1, all_canonicalize w2, all_canonicalize w3⟩,
      all_canonicalize c1, c2.imp_right all_canonicalize,
      c3.imp_right fun h => ⟨all_canonicalize h.1, all_canonicalize h.2⟩⟩
  refine ⟨core, fun m => ?_, fun hx m => ?_, fun m fs hfs f hf => ?_, fun d hd => ?_, htold _ (by unfold mkSkill; rw [e1]; rfl)⟩
  · obtain ⟨o, ho⟩ := core.answers.timing m
    have hv := RawCond.values_canonicalize (Cond.lookup_mem ho)
    have := List.all_eq_true.1 b2 o hv
    cases o with
    | none => cases this
    | some ts => exact ⟨ts, ho⟩
  · rcases d2 with h | d2
    · exact absurd h hx
    · exact Cond.lookupTuple_answers (RawCond.answers_canonicalize d2) _
  · rcases Cond.lookupTuple_mem hfs with h | rfl
    · exact coreOk_of (List.all_eq_true.1 (List.all_eq_true.1 d3 _ (RawCond.values_canonicalize h)) f hf)
    · cases hf
  · exact hmk _ (by unfold mkSkill; rw [e1]; rfl) d hd

/-- A class description that passed the check. -/
structure ClassOk (x : Exempt) (j : JobClass) (c : ClassSkills) (n : Names) : Prop where
  job : c.jobClass = j.jobClass
  init : j.init = .ok ()
  priority : j.priority >>= readPriority = .ok c.priority
  breakers : j.comboBreakers >>= readBreakers = .ok c.comboBreakers
  skills : getSkills j.skillMethods = .ok c.skills
  resources : getResources j.resourceMethods = .ok c.resources
  names : n.skills = c.skills.map (·.name)
  nodup : n.skills.Nodup
  own : ∀ a ∈ n.skills, ownName a = true
  gauges : n.resources = c.resources.map (·.1)
  followUps : ∀ a ∈ n.followUps, ∃ s ∈ c.skills, ∃ fs, s.followUpSkills = .single fs ∧
    ∃ f ∈ fs, f.skill.name = a
  buffs : ∀ a ∈ n.buffs, ∃ s ∈ c.skills, GivesBuff s a
  reacts : ∀ a e, n.reacts a e = true → ∃ s ∈ c.skills, ReactsTo s a e
  settings : n.settings = c.resources
  ok : ∀ s ∈ c.skills, SkillOk x n s
  auto : ∃ s ∈ c.skills, s.name ∈ autoNames ∧ LikeAuto s ∧ ∀ s' ∈ c.skills, s'.name ∈ autoNames → s' = s

theorem mapM_skills {x : Exempt} {n : Names} {l : List RawSkill} (h : ∀ r ∈ l, checkSkill x n r = true) :
    ∃ ss, l.mapM mkSkill = .ok ss ∧ ss.map (·.name) = l.map (·.name) ∧ (∀ s ∈ ss, SkillOk x n s) ∧
      ∀ r ∈ l, ∃ s ∈ ss, mkSkill r = .ok s := by
  induction l with
  | nil => exact ⟨[], rfl, rfl, by simp, by simp⟩
  | cons r l ih =>
    obtain ⟨s, h1, h2, h3⟩ := skillOk_of (h r (by simp))
    obtain ⟨ss, h4, h5, h6, h7⟩ := ih (fun r hr => h r (by simp [hr]))
    refine ⟨s :: ss, by rw [List.mapM_cons, h1, Py.ok_bind, h4]; rfl, by simp [h2, h5], ?_, ?_⟩
    · intro s' hs'
      rcases List.mem_cons.1 hs' with rfl | hs'
      · exact h3
      · exact h6 s' hs'
    · intro r' hr'
      rcases List.mem_cons.1 hr' with rfl | hr'
      · exact ⟨s, by simp, h1⟩
      · obtain ⟨s', hs', h8⟩ := h7 r' hr'
        exact ⟨s', by simp [hs'], h8⟩

theorem mkSkill_followUps {r : RawSkill} {s : Skill} (h : mkSkill r = .ok s) :
    s.followUpSkills = r.followUpSkills.canonicalize := by
  unfold mkSkill at h
  obtain ⟨d, _, h⟩ := Py.bind_eq_ok.1 h
  cases h
  rfl

theorem autoOk_of {r : RawSkill} {s : Skill} (hs : mkSkill r = .ok s) (h : autoOk r = true) : LikeAuto s := by
  simp only [autoOk, Bool.and_eq_true] at h
  obtain ⟨h1, h2, h3⟩ := h
  split at h1
  · rename_i hg
    split at h2
    · rename_i d hd
      split at h3
      · rename_i t ht
        simp only [Bool.and_eq_true, decide_eq_true_eq] at h2 h3
        unfold mkSkill at hs
        obtain ⟨ds, hds, hs⟩ := Py.bind_eq_ok.1 hs
        cases hs
        have hds' : ds = .single (some d) := by
          rw [hd] at hds
          unfold processAoeDropoff at hds
          split at hds <;> cases hds <;> rfl
        refine ⟨hg, fun m => ⟨d, ?_, ?_, h2.2⟩, fun m => ⟨t, ?_, h3⟩, t, ?_⟩
        · rw [hds']
          rfl
        · have := h2.1
          split at this
          · assumption
          · cases this
        · rw [ht]
          rfl
        · change r.timingSpec.canonicalize = _
          rw [ht]
          rfl
      · cases h3
    · cases h2
  · cases h1

theorem mkSkill_name {r : RawSkill} {s : Skill} (h : mkSkill r = .ok s) : s.name = r.name := by
  unfold mkSkill at h
  obtain ⟨d, _, h⟩ := Py.bind_eq_ok.1 h
  cases h
  rfl

theorem mapM_mem {α β : Type} {f : α → Py β} {l : List α} {l' : List β} (h : l.mapM f = .ok l') {b : β}
    (hb : b ∈ l') : ∃ a ∈ l, f a = .ok b := by
  induction l generalizing l' with
  | nil =>
    cases h
    cases hb
  | cons a l ih =>
    rw [List.mapM_cons] at h
    obtain ⟨b', h1, h⟩ := Py.bind_eq_ok.1 h
    obtain ⟨l'', h2, h⟩ := Py.bind_eq_ok.1 h
    cases h
    rcases List.mem_cons.1 hb with rfl | hb
    · exact ⟨a, by simp, h1⟩
    · obtain ⟨a', ha', h3⟩ := ih h2 hb
      exact ⟨a', by simp [ha'], h3⟩

theorem gives_iff {c : Cond (Option StatusEffectSpec)} :
    gives c = true ↔ ∃ e, c.lookup ({} : SkillModifier).withCondition = .ok (some e) := by
  unfold gives
  split
  · rename_i e he
    simp [he]
  · rename_i hn
    simpa using hn

theorem givesBuff_of {r : RawSkill} {s : Skill} (hs : mkSkill r = .ok s) {a : String} (ha : a ∈ buffsOf r) :
    GivesBuff s a := by
  have hf := mkSkill_followUps hs
  have hb : s.buffSpec = r.buffSpec.canonicalize := by
    unfold mkSkill at hs
    obtain ⟨d, _, hs⟩ := Py.bind_eq_ok.1 hs
    cases hs
    rfl
  rcases List.mem_append.1 ha with ha | ha
  · split_ifs at ha with hg
    · obtain ⟨e, he⟩ := gives_iff.1 hg
      refine ⟨s.toSkillCore, e, .inl rfl, (mkSkill_name hs).trans (List.mem_singleton.1 ha).symm, ?_⟩
      unfold SkillCore.getBuffSpec
      rw [hb, he]
    · cases ha
  · split at ha
    · rename_i fs hfs
      obtain ⟨f, hff, rfl⟩ := List.mem_map.1 ha
      obtain ⟨hff, hg⟩ := List.mem_filter.1 hff
      obtain ⟨e, he⟩ := gives_iff.1 hg
      refine ⟨f.skill, e, .inr ⟨fs, ?_, f, hff, rfl⟩, rfl, he⟩
      unfold Skill.getFollowUpSkills
      rw [hf, hfs]
    · cases ha

theorem keyed_iff {α : Type} {c : Cond α} {a : String} : keyed a c = true ↔ Keyed c a := by
  cases c with
  | single v => simp [keyed, Keyed]
  | dict d => simp [keyed, Keyed, List.any_eq_true]

theorem isFor_iff {e : StatusEffectSpec} {a : String} : isFor e a = true ↔ IsFor e a := by
  unfold isFor IsFor
  simp only [option_all, List.contains_iff_mem]

theorem reactsTo_of {r : RawSkill} {s : Skill} (hs : mkSkill r = .ok s) {a : String} {e : StatusEffectSpec}
    (h : reactsTo a e r = true) : ReactsTo s a e := by
  unfold reactsTo at h
  rw [Bool.or_eq_true, Bool.and_eq_true, isFor_iff, List.contains_iff_mem, List.any_eq_true] at h
  rcases h with ⟨h1, h2⟩ | ⟨f, hf, h⟩
  · exact .inl ⟨mkSkill_name hs ▸ h1, mindsAny_of hs h2⟩
  · unfold followUpsOf at hf
    split at hf
    · rename_i fs hfs
      rw [Bool.and_eq_true, isFor_iff] at h
      refine .inr ⟨{}, fs, ?_, f, hf, h.1, ?_⟩
      · unfold Skill.getFollowUpSkills
        rw [mkSkill_followUps hs, hfs]
        rfl
      · have := h.2
        unfold minds at this
        simp only [Bool.or_eq_true, keyed_iff] at this
        exact this
    · cases hf

theorem check_sound {x : Exempt} {j : JobClass} (h : check x j = true) : ∃ c n, ClassOk x j c n := by
  unfold check at h
  split at h
  · rename_i u p b l res h1 h2 h3 h4 h5
    simp only [Bool.and_eq_true, decide_eq_true_eq] at h
    obtain ⟨hn, ho, hl, hau⟩ := h
    obtain ⟨ss, e1, e2, e3, e4⟩ := mapM_skills (List.all_eq_true.1 hl)
    refine ⟨⟨j.jobClass, p, b, ss, res⟩, _, rfl, h1, h2, h3, ?_, h5, e2.symm, hn, List.all_eq_true.1 ho, rfl,
      ?_, ?_, ?_, rfl, e3, ?_⟩
    · unfold getSkills
      rw [h4]
      exact e1
    · intro a ha
      obtain ⟨f, hf, rfl⟩ := List.mem_map.1 ha
      obtain ⟨r, hr, hf⟩ := List.mem_flatMap.1 hf
      obtain ⟨s, hs, hm⟩ := e4 r hr
      unfold followUpsOf at hf
      split at hf
      · rename_i fs hfs
        refine ⟨s, hs, fs, ?_, f, hf, rfl⟩
        rw [mkSkill_followUps hm, hfs]
        rfl
      · cases hf
    · intro a ha
      obtain ⟨r, hr, ha⟩ := List.mem_flatMap.1 ha
      obtain ⟨s, hs, hm⟩ := e4 r hr
      exact ⟨s, hs, givesBuff_of hm ha⟩
    · intro a e ha
      obtain ⟨r, hr, ha⟩ := List.any_eq_true.1 ha
      obtain ⟨s, hs, hm⟩ := e4 r hr
      exact ⟨s, hs, reactsTo_of hm ha⟩
    · split at hau
      · rename_i r hr
        have hmem : r ∈ l.filter (fun r => autoNames.contains r.name) := by rw [hr]; simp
        obtain ⟨hrl, hrn⟩ := List.mem_filter.1 hmem
        obtain ⟨s, hs, hm⟩ := e4 r hrl
        refine ⟨s, hs, ?_, autoOk_of hm hau, fun s' hs' hn' => ?_⟩
        · rw [mkSkill_name hm]
          simpa using hrn
        · obtain ⟨r', hr', hm'⟩ := mapM_mem e1 hs'
          have : r' ∈ l.filter (fun r => autoNames.contains r.name) :=
            List.mem_filter.2 ⟨hr', by rw [← mkSkill_name hm']; simpa using hn'⟩
          rw [hr, List.mem_singleton] at this
          subst this
          rw [hm] at hm'
          exact (Except.ok.inj hm').symm
      · cases hau
  · cases h

end Ama.GameData
