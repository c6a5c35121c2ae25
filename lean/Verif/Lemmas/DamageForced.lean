import Verif.Lemmas.DamageSafe

/-!
# Where the forced critical and direct hits of damage instances come from
-/

namespace Ama

open Spec DamageBuilder

variable {P : SkillCore → Prop} {gauges : List String} {db : DamageBuilder}

/-- Some skill in `P` gives an effect with the spec that may affect `k`. -/
def Gives (P : SkillCore → Prop) (k : SkillCore) (s : StatusEffectSpec) : Prop :=
  ∃ a m, P a ∧ (a.getBuffSpec m = .ok (some s) ∨ a.getDebuffSpec m = .ok (some s)) ∧ Allowed k a.name s

/-- Whatever the effects force comes from a skill in `P`. -/
def Forced.By (P : SkillCore → Prop) (k : SkillCore) (b : StatusEffects) : Prop :=
  (b.guaranteedCrit = .default ∨ ∃ s, Gives P k s ∧ s.guaranteedCrit = b.guaranteedCrit) ∧
  (b.guaranteedDh = .default ∨ ∃ s, Gives P k s ∧ s.guaranteedDh = b.guaranteedDh)

/-- A snapshot, if taken, forces only what comes from a skill in `P`. -/
def SnapStatus.By (P : SkillCore → Prop) (k : SkillCore) : SnapStatus → Prop
  | .flag _ => True
  | .done b => Forced.By P k b

namespace StatusEffectTracker

theorem forcedFrom_mem {f : StatusEffectSpec → Forced} {L : List StatusEffectSpec} {c : Forced}
    (h : forcedFrom f .default L = some c) : c = .default ∨ ∃ s ∈ L, f s = c := by
  unfold forcedFrom at h
  split at h
  · cases h
    exact .inl rfl
  · next s hs =>
    rw [if_pos rfl] at h
    cases h
    have : s ∈ L.filter (fun s => decide (f s ≠ .default)) := by rw [hs]; simp
    exact .inr ⟨s, (List.mem_filter.1 this).1, rfl⟩
  · cases h

theorem compileEffects_by {get : SkillCore → SkillModifier → Py (Option StatusEffectSpec)}
    (hget : ∀ a m s, get a m = .ok (some s) →
      a.getBuffSpec m = .ok (some s) ∨ a.getDebuffSpec m = .ok (some s))
    {es : Effects} (h : Given get P es) {priority : List String} {t : ℚ} {k : SkillCore}
    {b : StatusEffects} {c : String} {es' : Effects}
    (hc : compileEffects priority t es k.statusEffectDenylist k.name = .ok (b, c, es')) :
    Forced.By P k b := by
  obtain ⟨x, y, h1, h2, rfl, -⟩ := compileEffects_spec h.1 hc
  have key : ∀ s ∈ (specsOf es (contribNames priority t es k.statusEffectDenylist k.name)).map Prod.snd,
      Gives P k s := by
    intro s hs
    obtain ⟨p, hp, rfl⟩ := List.mem_map.1 hs
    obtain ⟨a, m, ha, -, hg, hal⟩ := given_spec h hp
    exact ⟨a, m, ha, hget _ _ _ hg, hal⟩
  constructor
  · rcases forcedFrom_mem h1 with rfl | ⟨s, hs, rfl⟩
    · exact .inl rfl
    · exact .inr ⟨s, key s hs, rfl⟩
  · rcases forcedFrom_mem h2 with rfl | ⟨s, hs, rfl⟩
    · exact .inl rfl
    · exact .inr ⟨s, key s hs, rfl⟩

end StatusEffectTracker

theorem takeBuffs_by (h : SafeDb P db gauges) {t : ℚ} {skill : Skill} {m m' : SkillModifier}
    {b : StatusEffects} {db' : DamageBuilder} (hb : db.takeBuffs t skill m = .ok (b, m', db')) :
    SafeDb P db' gauges ∧ Forced.By P skill.toSkillCore b := by
  constructor
  · obtain ⟨b1, m1, db1, h1, h2⟩ := takeBuffs_total h t skill m
    rw [hb] at h1
    cases h1
    exact h2
  · unfold takeBuffs at hb
    obtain ⟨⟨⟨b, c⟩, se⟩, h1, hb⟩ := Py.bind_eq_ok.1 hb
    cases hb
    unfold StatusEffectTracker.compileBuffs at h1
    obtain ⟨⟨b1, c1, es⟩, h3, h2⟩ := Py.bind_eq_ok.1 h1
    cases h2
    exact StatusEffectTracker.compileEffects_by (fun _ _ _ h => .inl h) h.1.buffs h3

theorem takeDebuffs_by (h : SafeDb P db gauges) {t : ℚ} {skill : Skill} {m m' : SkillModifier}
    {target : String} {b : StatusEffects} {db' : DamageBuilder}
    (hb : db.takeDebuffs t skill m target = .ok (b, m', db')) :
    SafeDb P db' gauges ∧ Forced.By P skill.toSkillCore b := by
  constructor
  · obtain ⟨b1, m1, db1, h1, h2⟩ := takeDebuffs_total h t skill m target
    rw [hb] at h1
    cases h1
    exact h2
  · unfold takeDebuffs at hb
    obtain ⟨⟨⟨b, c⟩, se⟩, h1, hb⟩ := Py.bind_eq_ok.1 hb
    cases hb
    unfold StatusEffectTracker.compileDebuffs at h1
    obtain ⟨⟨b1, c1, es⟩, h3, h2⟩ := Py.bind_eq_ok.1 h1
    cases h2
    exact StatusEffectTracker.compileEffects_by (fun _ _ _ h => .inr h)
      (StatusEffectTracker.given_lookup h.1 target) h3

/-- What is known of a damage instance of the skill, used with modifiers that widen `a`. -/
structure InstanceBy (P : SkillCore → Prop) (skill : Skill) (a : SkillModifier) (x : DamageInstance) :
    Prop where
  same : x.skill = skill
  modifier : Widens a x.modifier
  damage : ∃ d, x.skill.getDamageSpec x.modifier = .ok (some d)
  buffs : Forced.By P skill.toSkillCore x.buffs
  debuffs : Forced.By P skill.toSkillCore x.debuffs

/-- What is known of a pending event of the skill, used with modifiers that widen `a`. -/
structure EventBy (P : SkillCore → Prop) (skill : Skill) (a : SkillModifier) (e : Event) : Prop where
  same : e.skill = skill
  modifier : Widens a e.modifier
  buffs : e.snapshotBuffs.By P skill.toSkillCore
  debuffs : e.snapshotDebuffs.By P skill.toSkillCore

theorem deals_of {x : DamageInstance} (h : deals x = true) :
    ∃ d, x.skill.getDamageSpec x.modifier = .ok (some d) := by
  unfold deals at h
  split at h
  · next d hd => exact ⟨d, hd⟩
  · cases h

theorem applyTargets_by {skill : Skill} {a : SkillModifier} {e : Event} {buffs : StatusEffects}
    (he : EventBy P skill a e) (hb : Forced.By P skill.toSkillCore buffs) {l : List (String × ℕ)}
    {s s' : DamageState} {m m' : SkillModifier} (hs : SafeDb P s.db gauges) (hm : Widens a m)
    (h : l.foldlM (applyTarget e buffs) (s, m) = .ok (s', m')) :
    ∀ x ∈ s'.q, x ∈ s.q ∨ InstanceBy P skill a x := by
  induction l generalizing s m with
  | nil =>
    cases h
    exact fun x hx => .inl hx
  | cons ti l ih =>
    rw [Py.foldlM_cons] at h
    obtain ⟨⟨s1, m1⟩, h1, h2⟩ := Py.bind_eq_ok.1 h
    unfold applyTarget at h1
    simp only at h1
    obtain ⟨⟨d, mu, db⟩, h3, h1⟩ := Py.bind_eq_ok.1 h1
    obtain ⟨q, h4, h1⟩ := Py.bind_eq_ok.1 h1
    simp only [Py.pure_eq, Except.ok.injEq, Prod.mk.injEq] at h1
    obtain ⟨rfl, rfl⟩ := h1
    obtain ⟨-, hq⟩ := pushInstance_spec h4
    have key : SafeDb P db gauges ∧ Forced.By P skill.toSkillCore d ∧ Widens a mu := by
      have hw := finalDebuffs_widens (hm.targetModifier e.targets.length ti.2) h3
      unfold finalDebuffs at h3
      have hd := he.debuffs
      cases hst : e.snapshotDebuffs with
      | done d' =>
        rw [hst] at h3 hd
        cases h3
        exact ⟨hs, hd, hw⟩
      | flag f =>
        rw [hst] at h3
        obtain ⟨k1, k2⟩ := takeDebuffs_by hs h3
        rw [he.same] at k2
        exact ⟨k1, k2, hw⟩
    obtain ⟨k1, k2, k3⟩ := key
    have hw : Widens a (if e.targets.length > 1 then m else mu) := by split_ifs <;> assumption
    intro x hx
    rcases ih (s := { s with db := db, q := q }) k1 hw h2 x hx with hx | hx
    · rcases List.mem_append.1 (hq.mem_iff.1 hx) with hx | hx
      · exact .inl hx
      · obtain ⟨hx, hd⟩ := List.mem_filter.1 hx
        rw [List.mem_singleton] at hx
        have hdd := deals_of hd
        subst hx
        exact .inr ⟨he.same, k3, hdd, hb, k2⟩
    · exact .inr hx

theorem snapshotTargets_by {skill : Skill} {a : SkillModifier} {e : Event} {secondary : ℚ} {prio : ℤ}
    {buffs : SnapStatus} {jp cp : Bool} (he : EventBy P skill a e) (hb : buffs.By P skill.toSkillCore)
    {l : List (String × ℕ)} {s s' : DamageState} {m m' : SkillModifier} (ho : s.events.Ok)
    (hs : SafeDb P s.db gauges) (hm : Widens a m)
    (h : l.foldlM (snapshotTarget e secondary prio buffs jp cp) (s, m) = .ok (s', m')) :
    s'.q = s.q ∧ ∀ e' ∈ s'.events.q, e' ∈ s.events.q ∨ EventBy P skill a e' := by
  induction l generalizing s m with
  | nil =>
    cases h
    exact ⟨rfl, fun x hx => .inl hx⟩
  | cons ti l ih =>
    rw [Py.foldlM_cons] at h
    obtain ⟨⟨s1, m1⟩, h1, h2⟩ := Py.bind_eq_ok.1 h
    unfold snapshotTarget at h1
    simp only at h1
    obtain ⟨⟨d, mu, db⟩, h3, h1⟩ := Py.bind_eq_ok.1 h1
    obtain ⟨evs, h4, h1⟩ := Py.bind_eq_ok.1 h1
    simp only [Py.pure_eq, Except.ok.injEq, Prod.mk.injEq] at h1
    obtain ⟨rfl, rfl⟩ := h1
    obtain ⟨evs', g3, g4, g5, -⟩ := Events.add_spec s.events ho _
    rw [h4] at g3
    cases g3
    have key : SafeDb P db gauges ∧ d.By P skill.toSkillCore ∧ Widens a mu := by
      have hw := hm.targetModifier e.targets.length ti.2
      have hd := he.debuffs
      rcases hst : e.snapshotDebuffs with (_ | _) | d'
      · rw [hst] at h3 hd
        cases h3
        exact ⟨hs, trivial, hw⟩
      · rw [hst] at h3
        obtain ⟨⟨d1, mu1, db1⟩, h6, h7⟩ := Py.bind_eq_ok.1 h3
        cases h7
        obtain ⟨k1, k2⟩ := takeDebuffs_by hs h6
        rw [he.same] at k2
        exact ⟨k1, k2, (takeDebuffs_spec hw h6).1⟩
      · rw [hst] at h3 hd
        cases h3
        exact ⟨hs, hd, hw⟩
    obtain ⟨k1, k2, k3⟩ := key
    have hw : Widens a (if e.targets.length > 1 then m else mu) := by split_ifs <;> assumption
    obtain ⟨i1, i2⟩ := ih (s := { s with db := db, events := evs }) g4 k1 hw h2
    refine ⟨i1, fun e' he' => ?_⟩
    rcases i2 e' he' with hx | hx
    · rcases List.mem_cons.1 (g5.mem_iff.1 hx) with rfl | hx
      · refine .inr ⟨he.same, k3, ?_, ?_⟩
        · simpa [Events.mkEvent] using hb
        · simpa [Events.mkEvent] using k2
      · exact .inl hx
    · exact .inr hx

/-- What is known of the state of the loop. -/
structure StateBy (P : SkillCore → Prop) (Q : Skill → SkillModifier → Prop) (s : DamageState) : Prop where
  events : ∀ e ∈ s.events.q, ∃ skill a, Q skill a ∧ EventBy P skill a e
  instances : ∀ x ∈ s.q, ∃ skill a, Q skill a ∧ InstanceBy P skill a x

variable {Q : Skill → SkillModifier → Prop}

theorem processEvent_by {s s' : DamageState} {e : Event} (ho : s.events.Ok) (hs : SafeDb P s.db gauges)
    (he : (Harmless gauges e.modifier e.skill.toSkillCore ∧ P e.skill.toSkillCore) ∧
      e.modifier.bonusPercent = none)
    (hq : StateBy P Q s) (hQ : ∃ skill a, Q skill a ∧ EventBy P skill a e)
    (h : processEvent s e = .ok s') : StateBy P Q s' := by
  obtain ⟨⟨hh, hP⟩, hb⟩ := he
  obtain ⟨skill, a, hQ, hE⟩ := hQ
  have h0 : SafeDb P { s.db with se := s.db.se.expire e.primary } gauges :=
    ⟨StatusEffectTracker.calm_expire hs.1 _, hs.2⟩
  unfold processEvent at h
  simp only at h
  cases hsec : e.secondary with
  | none =>
    rw [hsec] at h
    simp only at h
    unfold applyEvent at h
    simp only at h
    obtain ⟨m1, db1, a1, a2⟩ := gaugesIf_total h0 (!e.jobConditionalProcessed) e.primary e.skill e.modifier
    have w1 := (gaugesIf_spec hE.modifier a1).1
    have v1 := (gaugesIf_spec (Widens.refl _) a1).1
    obtain ⟨db2, b1, b2⟩ := changeIf_total a2 hh v1.2 (!e.jobResourcesAdded) e.primary
    obtain ⟨m3, db3, c1, c2⟩ := comboIf_total b2 hh v1.2 (!e.comboConditionalProcessed) e.primary
      ((bonus_widens v1).trans hb)
    have w3 := (comboIf_spec w1 c1).1
    rw [a1, Py.ok_bind] at h
    simp only at h
    rw [b1, Py.ok_bind, c1, Py.ok_bind] at h
    simp only at h
    obtain ⟨⟨b, m4, db4⟩, d1, h⟩ := Py.bind_eq_ok.1 h
    obtain ⟨⟨s5, m5⟩, e1, h⟩ := Py.bind_eq_ok.1 h
    obtain ⟨se, f1, h⟩ := Py.bind_eq_ok.1 h
    cases h
    have w4 := (finalBuffs_spec w3 d1).1
    have key : SafeDb P db4 gauges ∧ Forced.By P skill.toSkillCore b := by
      have hbu := hE.buffs
      cases hst : e.snapshotBuffs with
      | done b' =>
        rw [hst] at d1 hbu
        cases d1
        exact ⟨c2, hbu⟩
      | flag f =>
        rw [hst] at d1
        have := takeBuffs_by c2 d1
        rwa [hE.same] at this
    have hap := applyTargets_by hE key.2 (s := { s with
      db := db4 }) key.1 w4 e1
    have hev : s5.events = s.events := by
      obtain ⟨k, -⟩ := applyTargets_spec (N := False) (se0 := s.db.se)
        ((finalBuffs_spec ((comboIf_spec v1 c1).1) d1).1) (fun h => h.elim) (fun h => h.elim) e1
      exact k
    refine ⟨?_, fun x hx => ?_⟩
    · intro e' he'
      exact hq.events e' (by simpa [hev] using he')
    · rcases hap x hx with hx | hx
      · exact hq.instances x hx
      · exact ⟨skill, a, hQ, hx⟩
  | some secondary =>
    rw [hsec] at h
    simp only at h
    unfold snapshotEvent at h
    simp only at h
    obtain ⟨⟨b, m1, db1⟩, a1, h⟩ := Py.bind_eq_ok.1 h
    have key : SafeDb P db1 gauges ∧ b.By P skill.toSkillCore := by
      have hbu := hE.buffs
      rcases hst : e.snapshotBuffs with (_ | _) | b'
      · rw [hst] at a1 hbu
        cases a1
        exact ⟨h0, trivial⟩
      · rw [hst] at a1
        obtain ⟨⟨d1, mu1, db1⟩, h6, h7⟩ := Py.bind_eq_ok.1 a1
        cases h7
        have := takeBuffs_by h0 h6
        rwa [hE.same] at this
      · rw [hst] at a1 hbu
        cases a1
        exact ⟨h0, hbu⟩
    have w1 := (snapBuffs_spec hE.modifier a1).1
    have v1 := (snapBuffs_spec (Widens.refl _) a1).1
    obtain ⟨m2, db2, b1, b2⟩ := gaugesIf_total key.1
      (!e.jobConditionalProcessed && e.skill.jobResourcesSnapshot) e.primary e.skill m1
    have w2 := (gaugesIf_spec w1 b1).1
    have v2 := (gaugesIf_spec v1 b1).1
    obtain ⟨m3, db3, c1, c2⟩ := comboIf_total b2 hh v2.2 (!e.comboConditionalProcessed) e.primary
      ((bonus_widens v2).trans hb)
    have w3 := (comboIf_spec w2 c1).1
    have v3 := (comboIf_spec v2 c1).1
    obtain ⟨db4, d1, d2⟩ := changeIf_total c2 hh v3.2 (!e.jobResourcesAdded) e.primary
    rw [b1, Py.ok_bind] at h
    simp only at h
    rw [c1, Py.ok_bind] at h
    simp only at h
    rw [d1, Py.ok_bind] at h
    obtain ⟨⟨s5, m5⟩, e1, h⟩ := Py.bind_eq_ok.1 h
    cases h
    obtain ⟨i1, i2⟩ := snapshotTargets_by hE key.2 (s := { s with db := db4 }) ho d2 w3 e1
    refine ⟨fun e' he' => ?_, fun x hx => ?_⟩
    · rcases i2 e' he' with hx | hx
      · exact hq.events e' hx
      · exact ⟨skill, a, hQ, hx⟩
    · rw [i1] at hx
      exact hq.instances x hx

theorem reaches_by {s s' : DamageState} {tr : List (DamageState × Event)} (h : Reaches s tr s')
    (hs : SafeState P s gauges) (hq : StateBy P Q s) : StateBy P Q s' := by
  induction h with
  | refl s => exact hq
  | step s s1 s2 e evs tr h1 h2 h3 ih =>
    obtain ⟨s1', h4, h5⟩ := safe_next hs h1
    rw [h2] at h4
    cases h4
    obtain ⟨o1, o2, -⟩ := Events.getNext_spec hs.ok h1
    have hm : e ∈ s.events.q := o2.mem_iff.2 (by simp)
    exact ih (safe_step hs h1 h5 h2) (processEvent_by (s := { s with events := evs }) o1 hs.db
      (hs.harmless e hm) ⟨fun e' he' => hq.events e' (o2.mem_iff.2 (List.mem_cons_of_mem _ he')),
        hq.instances⟩ (hq.events e hm) h2)

end Ama
