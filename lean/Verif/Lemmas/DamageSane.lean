import Verif.Spec.Gear
import Verif.Lemmas.EffectSpecs
import Verif.Lemmas.DamageForced
import Verif.Lemmas.TimelineFlags

/-!
# Damage instances of skills without negative numbers have none
-/

namespace Ama

open Spec DamageBuilder StatusEffectTracker

/-- The effect has no negative multipliers or bonuses to rates, and does not lower damage. -/
def NonNegSpec (s : StatusEffectSpec) : Prop :=
  0 ≤ s.critRateAdd ∧ 0 ≤ s.dhRateAdd ∧ 1 ≤ s.damageMult ∧ 0 ≤ s.mainStatMult

/-- Neither has what several effects amount to. -/
def NonNegAgg (b : StatusEffects) : Prop :=
  0 ≤ b.critRateAdd ∧ 0 ≤ b.dhRateAdd ∧ 1 ≤ b.damageMult ∧ 0 ≤ b.mainStatMult

/-- A snapshot, if taken, has no negative numbers. -/
def SnapStatus.NonNeg : SnapStatus → Prop
  | .flag _ => True
  | .done b => NonNegAgg b

/-- The skill has no negative numbers, under any conditions. -/
structure NonNegSkill (k : SkillCore) : Prop where
  effects : SkillSpecs NonNegSpec k
  damage : ∀ m d, k.getDamageSpec m = .ok (some d) → 0 ≤ d.potency ∧ NonNegDamage d ∧
    ∀ t, d.traitDamageMultOverride = some t → 0 ≤ t

theorem nonNeg_steps {names : List String} {es es' : Effects} {a a' : CompileAcc}
    (h : ∀ kv ∈ es, NonNegSpec kv.2.spec) (ha : NonNegAgg a.agg)
    (h1 : names.foldlM compileStep (es, a) = .ok (es', a')) : NonNegAgg a'.agg := by
  induction names generalizing es a with
  | nil => cases h1; exact ha
  | cons x names ih =>
    rw [Py.foldlM_cons] at h1
    obtain ⟨⟨es2, acc2⟩, h2, h1⟩ := Py.bind_eq_ok.1 h1
    have h0 : [x].foldlM compileStep (es, a) = .ok (es2, acc2) := by
      rw [Py.foldlM_cons, h2]; rfl
    refine ih (specs_compileSteps h h0) ?_ h1
    unfold compileStep at h2
    obtain ⟨e, h3, h2⟩ := Py.bind_eq_ok.1 h2
    obtain ⟨a2, h4, h2⟩ := Py.bind_eq_ok.1 h2
    cases h2
    have he : NonNegSpec e.spec := by
      unfold Dict.get at h3
      cases hg : Dict.get? es x with
      | none => simp [hg] at h3
      | some e' =>
        simp only [hg, Except.ok.injEq] at h3
        subst h3
        exact h (x, e') (Dict.mem_of_get? hg)
    obtain ⟨e1, e2, e3, e4⟩ := he
    obtain ⟨a1, a2, a3, a4⟩ := ha
    unfold accEffect at h4
    simp only at h4
    have fin : ∀ {x : CompileAcc}, x.agg.critRateAdd = a.agg.critRateAdd + e.spec.critRateAdd →
        x.agg.dhRateAdd = a.agg.dhRateAdd + e.spec.dhRateAdd →
        x.agg.damageMult = a.agg.damageMult * e.spec.damageMult →
        x.agg.mainStatMult = a.agg.mainStatMult * e.spec.mainStatMult → NonNegAgg x.agg := by
      intro x q1 q2 q3 q4
      exact ⟨q1 ▸ add_nonneg a1 e1, q2 ▸ add_nonneg a2 e2, q3 ▸ one_le_mul_of_one_le_of_one_le a3 e3, q4 ▸ mul_nonneg a4 e4⟩
    split at h4
    · obtain ⟨_, _, h4⟩ := Py.bind_eq_ok.1 h4
      split at h4
      · obtain ⟨_, _, h4⟩ := Py.bind_eq_ok.1 h4
        cases h4
        exact fin rfl rfl rfl rfl
      · cases h4
        exact fin rfl rfl rfl rfl
    · split at h4
      · obtain ⟨_, _, h4⟩ := Py.bind_eq_ok.1 h4
        cases h4
        exact fin rfl rfl rfl rfl
      · cases h4
        exact fin rfl rfl rfl rfl

theorem nonNeg_empty : NonNegAgg {} := by
  refine ⟨?_, ?_, ?_, ?_⟩ <;> norm_num

theorem nonNeg_compile {tr tr' : StatusEffectTracker} (h : AllSpecs NonNegSpec tr) {slot : Slot} {t : ℚ}
    {skill : SkillCore} {agg : StatusEffects} {c : String}
    (hc : slot.compile tr t skill = .ok ((agg, c), tr')) : NonNegAgg agg := by
  have key : ∀ {priority es dl n agg c es'}, (∀ kv ∈ es, NonNegSpec kv.2.spec) →
      compileEffects priority t es dl n = .ok (agg, c, es') → NonNegAgg agg := by
    intro priority es dl n agg c es' h hc
    unfold compileEffects at hc
    obtain ⟨⟨es1, acc⟩, h1, hc⟩ := Py.bind_eq_ok.1 hc
    cases hc
    exact nonNeg_steps h nonNeg_empty h1
  cases slot with
  | buffs =>
    unfold Slot.compile compileBuffs at hc
    obtain ⟨⟨agg1, c1, es⟩, h1, hc⟩ := Py.bind_eq_ok.1 hc
    cases hc
    exact key h.1 h1
  | debuffs target =>
    unfold Slot.compile compileDebuffs at hc
    obtain ⟨⟨agg1, c1, es⟩, h1, hc⟩ := Py.bind_eq_ok.1 hc
    cases hc
    exact key (h.slot (.debuffs target)) h1

theorem takeBuffs_nonNeg {db db' : DamageBuilder} (h : AllSpecs NonNegSpec db.se) {t : ℚ} {skill : Skill}
    {m m' : SkillModifier} {b : StatusEffects} (hb : db.takeBuffs t skill m = .ok (b, m', db')) :
    AllSpecs NonNegSpec db'.se ∧ NonNegAgg b := by
  unfold takeBuffs at hb
  obtain ⟨⟨⟨b, c⟩, se⟩, h1, hb⟩ := Py.bind_eq_ok.1 hb
  cases hb
  exact ⟨h.compile (slot := .buffs) h1, nonNeg_compile h (slot := .buffs) h1⟩

theorem takeDebuffs_nonNeg {db db' : DamageBuilder} (h : AllSpecs NonNegSpec db.se) {t : ℚ} {skill : Skill}
    {m m' : SkillModifier} {target : String} {b : StatusEffects}
    (hb : db.takeDebuffs t skill m target = .ok (b, m', db')) :
    AllSpecs NonNegSpec db'.se ∧ NonNegAgg b := by
  unfold takeDebuffs at hb
  obtain ⟨⟨⟨b, c⟩, se⟩, h1, hb⟩ := Py.bind_eq_ok.1 hb
  cases hb
  exact ⟨h.compile (slot := .debuffs target) h1, nonNeg_compile h (slot := .debuffs target) h1⟩

/-- What is known of an instance. -/
structure NonNegInst (x : DamageInstance) : Prop where
  skill : NonNegSkill x.skill.toSkillCore
  damage : ∃ d, x.skill.getDamageSpec x.modifier = .ok (some d)
  buffs : NonNegAgg x.buffs
  debuffs : NonNegAgg x.debuffs

theorem NonNegInst.sane {x : DamageInstance} (h : NonNegInst x) : SaneHit x := by
  obtain ⟨d, hd⟩ := h.damage
  obtain ⟨h1, h2, h3⟩ := h.skill.damage _ d hd
  obtain ⟨a1, a2, a3, a4⟩ := h.buffs
  obtain ⟨b1, b2, b3, b4⟩ := h.debuffs
  exact ⟨rfl, ⟨⟨a1, le_rfl⟩, ⟨a2, le_rfl⟩, ⟨zero_le_one.trans a3, le_rfl⟩, le_rfl, ⟨a4, le_rfl⟩, .inl rfl, .inl rfl⟩,
    ⟨⟨b1, le_rfl⟩, ⟨b2, le_rfl⟩, ⟨zero_le_one.trans b3, le_rfl⟩, le_rfl, ⟨b4, le_rfl⟩, .inl rfl, .inl rfl⟩,
    d, d.potency, hd, hd, ⟨h1, le_rfl⟩, h2, h3⟩

/-- What is known of a pending event. -/
structure NonNegEvent (e : Event) : Prop where
  skill : NonNegSkill e.skill.toSkillCore
  buffs : e.snapshotBuffs.NonNeg
  debuffs : e.snapshotDebuffs.NonNeg

/-- What is known of the state of the loop. -/
structure NonNegState (s : DamageState) : Prop where
  ok : s.events.Ok
  specs : AllSpecs NonNegSpec s.db.se
  events : ∀ e ∈ s.events.q, NonNegEvent e
  instances : ∀ x ∈ s.q, NonNegInst x

theorem applyTargets_nonNeg {e : Event} {buffs : StatusEffects} (he : NonNegEvent e) (hb : NonNegAgg buffs)
    {l : List (String × ℕ)} {s s' : DamageState} {m m' : SkillModifier} (hs : NonNegState s)
    (h : l.foldlM (applyTarget e buffs) (s, m) = .ok (s', m')) : NonNegState s' := by
  induction l generalizing s m with
  | nil =>
    cases h
    exact hs
  | cons ti l ih =>
    rw [Py.foldlM_cons] at h
    obtain ⟨⟨s1, m1⟩, h1, h2⟩ := Py.bind_eq_ok.1 h
    unfold applyTarget at h1
    simp only at h1
    obtain ⟨⟨d, mu, db⟩, h3, h1⟩ := Py.bind_eq_ok.1 h1
    obtain ⟨q, h4, h1⟩ := Py.bind_eq_ok.1 h1
    simp only [Py.pure_eq, Except.ok.injEq, Prod.mk.injEq] at h1
    obtain ⟨rfl, rfl⟩ := h1
    obtain ⟨-, hq⟩ := pushInstance_spec h4
    have key : AllSpecs NonNegSpec db.se ∧ NonNegAgg d := by
      unfold finalDebuffs at h3
      have hd := he.debuffs
      cases hst : e.snapshotDebuffs with
      | done d' =>
        rw [hst] at h3 hd
        cases h3
        exact ⟨hs.specs, hd⟩
      | flag f =>
        rw [hst] at h3
        exact takeDebuffs_nonNeg hs.specs h3
    refine ih (s := { s with db := db, q := q }) ⟨hs.ok, key.1, hs.events, fun x hx => ?_⟩ h2
    rcases List.mem_append.1 (hq.mem_iff.1 hx) with hx | hx
    · exact hs.instances x hx
    · obtain ⟨hx, hd⟩ := List.mem_filter.1 hx
      rw [List.mem_singleton] at hx
      have hdd := deals_of hd
      subst hx
      exact ⟨he.skill, hdd, hb, key.2⟩

theorem snapshotTargets_nonNeg {e : Event} {secondary : ℚ} {prio : ℤ} {buffs : SnapStatus} {jp cp : Bool}
    (he : NonNegEvent e) (hb : buffs.NonNeg) {l : List (String × ℕ)} {s s' : DamageState}
    {m m' : SkillModifier} (hs : NonNegState s)
    (h : l.foldlM (snapshotTarget e secondary prio buffs jp cp) (s, m) = .ok (s', m')) : NonNegState s' := by
  induction l generalizing s m with
  | nil =>
    cases h
    exact hs
  | cons ti l ih =>
    rw [Py.foldlM_cons] at h
    obtain ⟨⟨s1, m1⟩, h1, h2⟩ := Py.bind_eq_ok.1 h
    unfold snapshotTarget at h1
    simp only at h1
    obtain ⟨⟨d, mu, db⟩, h3, h1⟩ := Py.bind_eq_ok.1 h1
    obtain ⟨evs, h4, h1⟩ := Py.bind_eq_ok.1 h1
    simp only [Py.pure_eq, Except.ok.injEq, Prod.mk.injEq] at h1
    obtain ⟨rfl, rfl⟩ := h1
    obtain ⟨evs', g3, g4, g5, -⟩ := Events.add_spec s.events hs.ok _
    rw [h4] at g3
    cases g3
    have key : AllSpecs NonNegSpec db.se ∧ d.NonNeg := by
      have hd := he.debuffs
      rcases hst : e.snapshotDebuffs with (_ | _) | d'
      · rw [hst] at h3 hd
        cases h3
        exact ⟨hs.specs, trivial⟩
      · rw [hst] at h3
        obtain ⟨⟨d1, mu1, db1⟩, h6, h7⟩ := Py.bind_eq_ok.1 h3
        cases h7
        exact takeDebuffs_nonNeg hs.specs h6
      · rw [hst] at h3 hd
        cases h3
        exact ⟨hs.specs, hd⟩
    refine ih (s := { s with db := db, events := evs }) ⟨g4, key.1, fun e' he' => ?_, hs.instances⟩ h2
    rcases List.mem_cons.1 (g5.mem_iff.1 he') with rfl | hx
    · refine ⟨he.skill, ?_, ?_⟩
      · simpa [Events.mkEvent] using hb
      · simpa [Events.mkEvent] using key.2
    · exact hs.events _ hx

theorem processEvent_nonNeg {s s' : DamageState} {e : Event} (hs : NonNegState s) (he : NonNegEvent e)
    (h : processEvent s e = .ok s') : NonNegState s' := by
  unfold processEvent at h
  simp only at h
  have h0 := hs.specs.expire e.primary
  have w := Widens.refl e.modifier
  cases hsec : e.secondary with
  | none =>
    rw [hsec] at h
    simp only at h
    unfold applyEvent at h
    simp only at h
    obtain ⟨⟨m1, db1⟩, a1, h⟩ := Py.bind_eq_ok.1 h
    obtain ⟨db2, b1, h⟩ := Py.bind_eq_ok.1 h
    obtain ⟨⟨m3, db3⟩, c1, h⟩ := Py.bind_eq_ok.1 h
    obtain ⟨⟨b, m4, db4⟩, d1, h⟩ := Py.bind_eq_ok.1 h
    obtain ⟨⟨s5, m5⟩, e1, h⟩ := Py.bind_eq_ok.1 h
    obtain ⟨se, f1, h⟩ := Py.bind_eq_ok.1 h
    cases h
    obtain ⟨w1, i1⟩ := gaugesIf_spec w a1
    have i2 := changeIf_spec b1
    have i3 := (comboIf_spec w1 c1).2
    have h3 : AllSpecs NonNegSpec db3.se := by rw [i3, i2, i1]; exact h0
    have key : AllSpecs NonNegSpec db4.se ∧ NonNegAgg b := by
      have hbu := he.buffs
      cases hst : e.snapshotBuffs with
      | done b' =>
        rw [hst] at d1 hbu
        cases d1
        exact ⟨h3, hbu⟩
      | flag f =>
        rw [hst] at d1
        exact takeBuffs_nonNeg h3 d1
    have h5 := applyTargets_nonNeg he key.2 (s := { s with db := db4 }) ⟨hs.ok, key.1, hs.events, hs.instances⟩ e1
    exact ⟨h5.ok, h5.specs.add he.skill.effects f1, h5.events, h5.instances⟩
  | some secondary =>
    rw [hsec] at h
    simp only at h
    unfold snapshotEvent at h
    simp only at h
    obtain ⟨⟨b, m1, db1⟩, a1, h⟩ := Py.bind_eq_ok.1 h
    obtain ⟨⟨m2, db2⟩, b1, h⟩ := Py.bind_eq_ok.1 h
    obtain ⟨⟨m3, db3⟩, c1, h⟩ := Py.bind_eq_ok.1 h
    obtain ⟨db4, d1, h⟩ := Py.bind_eq_ok.1 h
    obtain ⟨⟨s5, m5⟩, e1, h⟩ := Py.bind_eq_ok.1 h
    cases h
    have key : AllSpecs NonNegSpec db1.se ∧ b.NonNeg := by
      have hbu := he.buffs
      rcases hst : e.snapshotBuffs with (_ | _) | b'
      · rw [hst] at a1 hbu
        cases a1
        exact ⟨h0, trivial⟩
      · rw [hst] at a1
        obtain ⟨⟨d1, mu1, db1⟩, h6, h7⟩ := Py.bind_eq_ok.1 a1
        cases h7
        exact takeBuffs_nonNeg (db := { s.db with se := s.db.se.expire e.primary }) h0 h6
      · rw [hst] at a1 hbu
        cases a1
        exact ⟨h0, hbu⟩
    obtain ⟨w1, i1⟩ := gaugesIf_spec (Widens.refl m1) b1
    have i2 := (comboIf_spec w1 c1).2
    have i3 := changeIf_spec d1
    have h4 : AllSpecs NonNegSpec db4.se := by rw [i3, i2, i1]; exact key.1
    exact snapshotTargets_nonNeg he key.2 (s := { s with db := db4 }) ⟨hs.ok, h4, hs.events, hs.instances⟩ e1

theorem reaches_nonNeg {s s' : DamageState} {tr : List (DamageState × Event)} (h : Reaches s tr s')
    (hs : NonNegState s) : NonNegState s' := by
  induction h with
  | refl s => exact hs
  | step s s1 s2 e evs tr h1 h2 h3 ih =>
    obtain ⟨o1, o2, -⟩ := Events.getNext_spec hs.ok h1
    exact ih (processEvent_nonNeg (s := { s with events := evs }) ⟨o1, hs.specs,
      fun e' he' => hs.events e' (o2.mem_iff.2 (List.mem_cons_of_mem _ he')), hs.instances⟩
      (hs.events e (o2.mem_iff.2 (by simp))) h2)

/-- The instances of a rotation of skills without negative numbers have none, and no effect lowers their damage. -/
theorem instances_sane {rb rb' : RotationBuilder} {fuel : ℕ} (hr : rb.getSkillTiming fuel = .ok rb')
    (hk : ∀ e ∈ rb'.events.q, NonNegSkill e.skill.toSkillCore) {stats : Stats} {lib : SkillLibrary}
    {db db' : DamageBuilder} (hi : DamageBuilder.init stats lib = .ok db) {xs : List DamageInstance}
    (h : db.getDamageInstances rb'.events = .ok (xs, db')) :
    ∀ x ∈ xs, SaneHit x ∧ 1 ≤ x.buffs.damageMult * x.debuffs.damageMult := by
  obtain ⟨tr, s, ⟨h1, -⟩, rfl, -⟩ := getDamageInstances_ok h
  have hse : AllSpecs NonNegSpec db.se := by
    unfold DamageBuilder.init at hi
    obtain ⟨p, -, hi⟩ := Py.bind_eq_ok.1 hi
    obtain ⟨r, -, hi⟩ := Py.bind_eq_ok.1 hi
    obtain ⟨c, -, hi⟩ := Py.bind_eq_ok.1 hi
    cases hi
    exact allSpecs_empty _
  have hst : NonNegState { db := db, events := rb'.events } := by
    refine ⟨timeline_ok (.inl ⟨fuel, rb', rb, hr, rfl⟩), hse, fun e he => ?_, by simp⟩
    have hf := RotationBuilder.timing_flags hr e he
    refine ⟨hk e he, ?_, ?_⟩
    · have := hf.1
      cases hx : e.snapshotBuffs with
      | flag => trivial
      | done => rw [hx] at this; exact this.elim
    · have := hf.2
      cases hx : e.snapshotDebuffs with
      | flag => trivial
      | done => rw [hx] at this; exact this.elim
  intro x hx
  have hn := (reaches_nonNeg h1 hst).instances x ((sortBy_perm _ _).mem_iff.1 hx)
  exact ⟨hn.sane, one_le_mul_of_one_le_of_one_le hn.buffs.2.2.1 hn.debuffs.2.2.1⟩

end Ama
