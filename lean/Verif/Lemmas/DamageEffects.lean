import Verif.Spec.DamageEffects
import Verif.Lemmas.DamageRuns
import Verif.Lemmas.StatusEffectGrants

/-!
# Lemmas: status effects during executions of the damage builder
-/

namespace Ama

open Spec DamageBuilder StatusEffectTracker

theorem mem_hitsOf {q : List Event} {h : Hit} (hm : h ∈ hitsOf q) : h.event ∈ q := by
  unfold hitsOf at hm
  obtain ⟨e, he, h1⟩ := List.mem_flatMap.1 hm
  obtain ⟨ti, -, rfl⟩ := List.mem_map.1 h1
  exact he

theorem forall₂_with_mem {α β : Type} {R : α → β → Prop} {l : List α} {m : List β}
    (h : List.Forall₂ R l m) : List.Forall₂ (fun a b => a ∈ l ∧ R a b) l m := by
  induction h with
  | nil => exact .nil
  | cons h1 _ ih =>
    exact .cons ⟨List.mem_cons_self, h1⟩ (ih.imp fun _ _ h => ⟨List.mem_cons_of_mem _ h.1, h.2⟩)

/-! ## One entry of the tracker -/

open Classical in
/-- What using a slot does to an entry. -/
noncomputable def useEntry (t : ℚ) (skill : SkillCore) (name : String) (a : Option ActiveEffect) :
    Option ActiveEffect :=
  a.map (fun e => if e.start ≤ t ∧ Allowed skill name e.spec then e.used else e)

/-- The entry of an effect. -/
abbrev entry (tr : StatusEffectTracker) (slot : Slot) (name : String) : Option ActiveEffect :=
  Dict.get? (slot.effects tr) name

theorem compile_entry {tr tr' : StatusEffectTracker} (hwf : WellFormed tr) {t : ℚ} {skill : SkillCore}
    {slot' : Slot} {agg : StatusEffects} {cond : String} {name : String} (hp : name ∉ tr.priority)
    (h : slot'.compile tr t skill = .ok ((agg, cond), tr')) :
    WellFormed tr' ∧ tr'.priority = tr.priority ∧
    (∀ slot, entry tr' slot name =
      if slot' = slot then useEntry t skill name (entry tr slot name) else entry tr slot name) ∧
    (name ∈ agg.statusEffects ↔ ∃ e, entry tr slot' name = some e ∧ e.start ≤ t ∧
      Allowed skill name e.spec) := by
  obtain ⟨hm, hg, hoth, hwf', hpr⟩ := compile_spec hwf h
  have hmem : name ∈ agg.statusEffects ↔ ∃ e, entry tr slot' name = some e ∧ e.start ≤ t ∧
      Allowed skill name e.spec := by
    rw [hm, valid_iff_get? (effects_nodup hwf _)]
    exact ⟨fun h => h.1, fun h => ⟨h, not_outranked hp _⟩⟩
  refine ⟨hwf', hpr, fun slot => ?_, hmem⟩
  split_ifs with hs
  · subst hs
    unfold entry
    rw [hg]
    cases he : Dict.get? (slot'.effects tr) name with
    | none => simp [useEntry]
    | some e =>
      by_cases hc : e.start ≤ t ∧ Allowed skill name e.spec
      · rw [if_pos (hmem.2 ⟨e, he, hc⟩)]
        simp [useEntry, hc]
      · rw [if_neg]
        · simp [useEntry, hc]
        · rw [hmem]
          rintro ⟨e', he', hc'⟩
          unfold entry at he'
          rw [he] at he'
          cases he'
          exact hc hc'
  · unfold entry
    rw [hoth slot (fun h => hs h.symm)]

/-! ## One iteration -/

/-- From one tracker to another by uses of the slots in `S`, each once. -/
def UsedOnce (name : String) (t : ℚ) (skill : SkillCore) (S : Slot → Bool)
    (tr tr' : StatusEffectTracker) : Prop :=
  WellFormed tr → name ∉ tr.priority → WellFormed tr' ∧ tr'.priority = tr.priority ∧
    ∀ slot, entry tr' slot name =
      if S slot then useEntry t skill name (entry tr slot name) else entry tr slot name

theorem UsedOnce.none {name : String} {t : ℚ} {skill : SkillCore} (tr : StatusEffectTracker) :
    UsedOnce name t skill (fun _ => false) tr tr :=
  fun h _ => ⟨h, rfl, fun _ => rfl⟩

theorem UsedOnce.trans {name : String} {t : ℚ} {skill : SkillCore} {S S' : Slot → Bool}
    {a b c : StatusEffectTracker} (hd : ∀ slot, S slot = true → S' slot = false)
    (h : UsedOnce name t skill S a b) (h' : UsedOnce name t skill S' b c) :
    UsedOnce name t skill (fun slot => S slot || S' slot) a c := by
  intro hwf hp
  obtain ⟨h1, h2, h3⟩ := h hwf hp
  obtain ⟨h4, h5, h6⟩ := h' h1 (by rw [h2]; exact hp)
  refine ⟨h4, h5.trans h2, fun slot => ?_⟩
  rw [h6, h3]
  cases hs : S slot with
  | true => simp [hs, hd slot hs]
  | false => simp [hs]

theorem UsedOnce.congr {name : String} {t : ℚ} {skill : SkillCore} {S S' : Slot → Bool}
    {a b : StatusEffectTracker} (h : UsedOnce name t skill S a b) (he : ∀ slot, S slot = S' slot) :
    UsedOnce name t skill S' a b := by
  have : S = S' := funext he
  exact this ▸ h

theorem takeBuffs_used {db db' : DamageBuilder} {t : ℚ} {skill : Skill} {m m' : SkillModifier}
    {b : StatusEffects} (name : String) (h : db.takeBuffs t skill m = .ok (b, m', db')) :
    UsedOnce name t skill.toSkillCore (fun s => decide (s = .buffs)) db.se db'.se := by
  unfold takeBuffs at h
  obtain ⟨⟨⟨b, c⟩, se⟩, h1, h⟩ := Py.bind_eq_ok.1 h
  cases h
  intro hwf hp
  obtain ⟨a1, a2, a3, -⟩ := compile_entry (slot' := .buffs) hwf hp h1
  refine ⟨a1, a2, fun slot => ?_⟩
  rw [a3]
  by_cases hs : slot = .buffs <;> simp [hs, eq_comm]

theorem takeDebuffs_used {db db' : DamageBuilder} {t : ℚ} {skill : Skill} {m m' : SkillModifier}
    {b : StatusEffects} {target : String} (name : String)
    (h : db.takeDebuffs t skill m target = .ok (b, m', db')) :
    UsedOnce name t skill.toSkillCore (fun s => decide (s = .debuffs target)) db.se db'.se := by
  unfold takeDebuffs at h
  obtain ⟨⟨⟨b, c⟩, se⟩, h1, h⟩ := Py.bind_eq_ok.1 h
  cases h
  intro hwf hp
  obtain ⟨a1, a2, a3, -⟩ := compile_entry (slot' := .debuffs target) hwf hp h1
  refine ⟨a1, a2, fun slot => ?_⟩
  rw [a3]
  by_cases hs : slot = .debuffs target <;> simp [hs, eq_comm]

/-- The effects have not been determined yet. -/
def pending : SnapStatus → Bool
  | .done _ => false
  | .flag _ => true

/-- Effects with this flag are determined when the event is processed. -/
def takesNow (e : Event) (st : SnapStatus) : Bool :=
  pending st && (decide (st = .flag true) || e.secondary.isNone)

/-- The effects of the slot are determined when the event is processed. -/
def takes (e : Event) : Slot → Bool
  | .buffs => takesNow e e.snapshotBuffs
  | .debuffs target => takesNow e e.snapshotDebuffs && decide (target ∈ e.targets)

theorem finalBuffs_used {st : SnapStatus} {db db' : DamageBuilder} {t : ℚ} {skill : Skill}
    {m m' : SkillModifier} {b : StatusEffects} (name : String)
    (h : finalBuffs st db t skill m = .ok (b, m', db')) :
    UsedOnce name t skill.toSkillCore
      (fun s => decide (s = .buffs) && pending st)
      db.se db'.se := by
  unfold finalBuffs at h
  cases st with
  | done b' =>
    cases h
    exact (UsedOnce.none _).congr (by simp [pending])
  | flag f => exact (takeBuffs_used name h).congr (by simp [pending])

theorem snapBuffs_used {st st' : SnapStatus} {db db' : DamageBuilder} {t : ℚ} {skill : Skill}
    {m m' : SkillModifier} (name : String) (h : snapBuffs st db t skill m = .ok (st', m', db')) :
    UsedOnce name t skill.toSkillCore (fun s => decide (s = .buffs) && decide (st = .flag true))
      db.se db'.se := by
  unfold snapBuffs at h
  rcases st with (_ | _) | b'
  · cases h
    exact (UsedOnce.none _).congr (by simp)
  · obtain ⟨⟨b, m1, db1⟩, h1, h⟩ := Py.bind_eq_ok.1 h
    cases h
    exact (takeBuffs_used name h1).congr (by simp)
  · cases h
    exact (UsedOnce.none _).congr (by simp)

theorem applyTarget_used {e : Event} {buffs : StatusEffects} {s s' : DamageState}
    {m m' : SkillModifier} {ti : String × ℕ} (name : String)
    (h : applyTarget e buffs (s, m) ti = .ok (s', m')) :
    UsedOnce name e.primary e.skill.toSkillCore (fun sl => decide (sl = .debuffs ti.1) &&
      pending e.snapshotDebuffs) s.db.se s'.db.se := by
  unfold applyTarget at h
  simp only at h
  obtain ⟨⟨d, mu, db⟩, h1, h⟩ := Py.bind_eq_ok.1 h
  obtain ⟨q, h2, h⟩ := Py.bind_eq_ok.1 h
  simp only [Py.pure_eq, Except.ok.injEq, Prod.mk.injEq] at h
  obtain ⟨rfl, rfl⟩ := h
  cases hd : e.snapshotDebuffs with
  | done d' =>
    rw [hd] at h1
    cases h1
    exact (UsedOnce.none _).congr (by simp [pending])
  | flag f =>
    rw [hd] at h1
    exact (takeDebuffs_used name h1).congr (by simp [pending])

theorem snapshotTarget_used {e : Event} {secondary : ℚ} {prio : ℤ} {buffs : SnapStatus}
    {jp cp : Bool} {s s' : DamageState} {m m' : SkillModifier} {ti : String × ℕ} (name : String)
    (h : snapshotTarget e secondary prio buffs jp cp (s, m) ti = .ok (s', m')) :
    UsedOnce name e.primary e.skill.toSkillCore
      (fun sl => decide (sl = .debuffs ti.1) && decide (e.snapshotDebuffs = .flag true))
      s.db.se s'.db.se := by
  unfold snapshotTarget at h
  simp only at h
  obtain ⟨⟨d, mu, db⟩, h1, h⟩ := Py.bind_eq_ok.1 h
  obtain ⟨evs, h2, h⟩ := Py.bind_eq_ok.1 h
  simp only [Py.pure_eq, Except.ok.injEq, Prod.mk.injEq] at h
  obtain ⟨rfl, rfl⟩ := h
  rcases hd : e.snapshotDebuffs with (_ | _) | d'
  · rw [hd] at h1
    cases h1
    exact (UsedOnce.none _).congr (by simp)
  · rw [hd] at h1
    obtain ⟨⟨d1, mu1, db1⟩, h6, h7⟩ := Py.bind_eq_ok.1 h1
    cases h7
    exact (takeDebuffs_used name h6).congr (by simp)
  · rw [hd] at h1
    cases h1
    exact (UsedOnce.none _).congr (by simp)

/-- A loop over distinct targets that uses the debuffs of each. -/
theorem targets_used {name : String} {t : ℚ} {skill : SkillCore} {c : Bool}
    {f : DamageState × SkillModifier → String × ℕ → Py (DamageState × SkillModifier)}
    (hf : ∀ s m ti s' m', f (s, m) ti = .ok (s', m') →
      UsedOnce name t skill (fun sl => decide (sl = .debuffs ti.1) && c) s.db.se s'.db.se)
    {l : List (String × ℕ)} (hn : (l.map Prod.fst).Nodup) {s s' : DamageState} {m m' : SkillModifier}
    (h : l.foldlM f (s, m) = .ok (s', m')) :
    UsedOnce name t skill
      (fun sl => match sl with
        | .buffs => false
        | .debuffs target => c && decide (target ∈ l.map Prod.fst)) s.db.se s'.db.se := by
  induction l generalizing s m with
  | nil =>
    cases h
    exact (UsedOnce.none _).congr (by intro sl; cases sl <;> simp)
  | cons ti l ih =>
    rw [Py.foldlM_cons] at h
    obtain ⟨⟨s1, m1⟩, h1, h2⟩ := Py.bind_eq_ok.1 h
    rw [List.map_cons, List.nodup_cons] at hn
    refine ((hf _ _ _ _ _ h1).trans ?_ (ih hn.2 h2)).congr ?_
    · intro sl hs
      simp only [Bool.and_eq_true, decide_eq_true_eq] at hs
      obtain ⟨rfl, -⟩ := hs
      simp [hn.1]
    · intro sl
      cases sl with
      | buffs => simp
      | debuffs target =>
        cases c <;> simp only [List.map_cons, List.mem_cons, Bool.decide_or, Slot.debuffs.injEq, Bool.and_true,
          Bool.and_false, Bool.true_and, Bool.false_and, Bool.or_false]

theorem applyEvent_used {s s' : DamageState} {e : Event} (name : String) (hn : e.targets.Nodup)
    (hsec : e.secondary = none) (h : applyEvent s e = .ok s') :
    ∃ se m, UsedOnce name e.primary e.skill.toSkillCore (takes e) s.db.se se ∧
      se.add e.primary e.skill.toSkillCore m e.targets = .ok s'.db.se := by
  unfold applyEvent at h
  simp only at h
  obtain ⟨⟨m1, db1⟩, h1, h⟩ := Py.bind_eq_ok.1 h
  obtain ⟨db2, h2, h⟩ := Py.bind_eq_ok.1 h
  obtain ⟨⟨m3, db3⟩, h3, h⟩ := Py.bind_eq_ok.1 h
  obtain ⟨⟨b, m4, db4⟩, h4, h⟩ := Py.bind_eq_ok.1 h
  obtain ⟨⟨s5, m5⟩, h5, h⟩ := Py.bind_eq_ok.1 h
  obtain ⟨se, h6, h⟩ := Py.bind_eq_ok.1 h
  cases h
  obtain ⟨w1, e1⟩ := gaugesIf_spec (Widens.refl _) h1
  have e2 := changeIf_spec h2
  obtain ⟨w3, e3⟩ := comboIf_spec w1 h3
  have eq3 : db3.se = s.db.se := e3.trans (e2.trans e1)
  have u1 := finalBuffs_used name h4
  rw [eq3] at u1
  have u2 := targets_used (fun s m ti s' m' hh => applyTarget_used name hh)
    (by rw [map_fst_zipIdx]; exact hn) h5
  refine ⟨s5.db.se, m5, (u1.trans ?_ u2).congr ?_, h6⟩
  · intro sl hs
    simp only [Bool.and_eq_true, decide_eq_true_eq] at hs
    rw [hs.1]
  · intro sl
    rw [map_fst_zipIdx]
    unfold takes takesNow
    cases sl with
    | buffs => simp [hsec]
    | debuffs target => simp [hsec]

theorem snapshotEvent_used {s s' : DamageState} {e : Event} {secondary : ℚ} (name : String)
    (hn : e.targets.Nodup) (hsec : e.secondary = some secondary)
    (h : snapshotEvent s e secondary = .ok s') :
    UsedOnce name e.primary e.skill.toSkillCore (takes e) s.db.se s'.db.se := by
  unfold snapshotEvent at h
  simp only at h
  obtain ⟨⟨b, m1, db1⟩, h1, h⟩ := Py.bind_eq_ok.1 h
  obtain ⟨⟨m2, db2⟩, h2, h⟩ := Py.bind_eq_ok.1 h
  obtain ⟨⟨m3, db3⟩, h3, h⟩ := Py.bind_eq_ok.1 h
  obtain ⟨db4, h4, h⟩ := Py.bind_eq_ok.1 h
  obtain ⟨⟨s5, m5⟩, h5, h⟩ := Py.bind_eq_ok.1 h
  cases h
  have u1 := snapBuffs_used name h1
  obtain ⟨-, e2⟩ := gaugesIf_spec (Widens.refl _) h2
  obtain ⟨-, e3⟩ := comboIf_spec (Widens.refl _) h3
  have e4 := changeIf_spec h4
  have eq4 : db4.se = db1.se := e4.trans (e3.trans e2)
  have u2 := targets_used (fun s m ti s' m' hh => snapshotTarget_used name hh)
    (by rw [map_fst_zipIdx]; exact hn) h5
  simp only [eq4] at u2
  refine (u1.trans ?_ u2).congr ?_
  · intro sl hs
    simp only [Bool.and_eq_true, decide_eq_true_eq] at hs
    rw [hs.1]
  · intro sl
    rw [map_fst_zipIdx]
    unfold takes takesNow
    cases sl with
    | buffs => rcases e.snapshotBuffs with (_ | _) | _ <;> simp [hsec, pending]
    | debuffs target => rcases e.snapshotDebuffs with (_ | _) | _ <;> simp [hsec, pending]

/-! ## The window of an effect with unlimited uses -/

/-- The entry of the effect agrees with the window `w` as of time `t`. -/
structure Sim (spec : StatusEffectSpec) (t : ℚ) (a : Option ActiveEffect) (w : Option (WithTop ℚ)) :
    Prop where
  run : ∀ e, a = some e → e.uses = ⊤ ∧ e.spec = spec ∧ e.start ≤ t ∧ w = some e.endT
  over : a = none → ∀ endT, w = some endT → endT < (t : WithTop ℚ)

theorem entry_expire {tr : StatusEffectTracker} (hwf : WellFormed tr) (t : ℚ) (slot : Slot)
    (name : String) :
    entry (tr.expire t) slot name =
      (entry tr slot name).filter (fun e => (t : WithTop ℚ) ≤ e.endT ∧ e.uses ≠ 0) := by
  unfold entry
  rw [effects_expire, get?_expireEffects (effects_nodup hwf slot)]
  cases Dict.get? (slot.effects tr) name with
  | none => rfl
  | some e => simp [Option.filter]

theorem Sim.expire {spec : StatusEffectSpec} {t t' : ℚ} {a : Option ActiveEffect}
    {w : Option (WithTop ℚ)} (h : Sim spec t a w) (ht : t ≤ t') :
    Sim spec t' (a.filter (fun e => (t' : WithTop ℚ) ≤ e.endT ∧ e.uses ≠ 0)) w ∧
      ∀ e, a.filter (fun e => (t' : WithTop ℚ) ≤ e.endT ∧ e.uses ≠ 0) = some e →
        (t' : WithTop ℚ) ≤ e.endT := by
  have hl : ∀ e, a.filter (fun e => (t' : WithTop ℚ) ≤ e.endT ∧ e.uses ≠ 0) = some e →
      a = some e ∧ (t' : WithTop ℚ) ≤ e.endT := by
    intro e he
    rw [Option.filter_eq_some_iff] at he
    simp only [decide_eq_true_eq] at he
    exact ⟨he.1, he.2.1⟩
  refine ⟨⟨fun e he => ?_, fun hn endT hw => ?_⟩, fun e he => (hl e he).2⟩
  · obtain ⟨h1, h2, h3, h4⟩ := h.run e (hl e he).1
    exact ⟨h1, h2, h3.trans ht, h4⟩
  · cases ha : a with
    | none => exact (h.over ha endT hw).trans_le (WithTop.coe_le_coe.2 ht)
    | some e =>
      obtain ⟨h1, h2, h3, h4⟩ := h.run e ha
      rw [h4] at hw
      cases hw
      rw [ha, Option.filter_eq_none_iff] at hn
      have := hn e rfl
      simp only [decide_eq_true_eq, not_and_or, not_le, not_not] at this
      rcases this with h5 | h5
      · exact h5
      · rw [h1] at h5
        cases h5

theorem Sim.use {spec : StatusEffectSpec} {t : ℚ} {a : Option ActiveEffect}
    {w : Option (WithTop ℚ)} (h : Sim spec t a w) (skill : SkillCore) (name : String) :
    useEntry t skill name a = a := by
  unfold useEntry
  cases a with
  | none => rfl
  | some e =>
    obtain ⟨h1, -⟩ := h.run e rfl
    have : e.used = e := by
      unfold ActiveEffect.used
      rw [h1]
      cases e
      simp only at h1
      subst h1
      rfl
    simp [this]

theorem max_subTime (x : WithTop ℚ) (t : ℚ) : max (subTime x t) 0 = remaining x t := by
  cases x with
  | top => simp [subTime, remaining]
  | coe x =>
    simp only [subTime, WithTop.map_coe, remaining]
    exact (WithTop.coe_max (x - t) 0).symm

theorem Sim.grant {spec : StatusEffectSpec} {t : ℚ} {es : Effects} {name : String}
    {w : Option (WithTop ℚ)} (hu : Unlimited spec) (h : Sim spec t (Dict.get? es name) w)
    (hl : ∀ e, Dict.get? es name = some e → (t : WithTop ℚ) ≤ e.endT) :
    Sim spec t (Dict.get? (addEffect es t name spec) name) (endAfter spec w t) := by
  unfold addEffect endAfter
  cases ha : Dict.get? es name with
  | none =>
    have hw : w.filter (fun endT => (t : WithTop ℚ) ≤ endT) = none := by
      rw [Option.filter_eq_none_iff]
      intro endT he
      have := h.over ha endT he
      simpa using this
    rw [hw]
    simp only
    split_ifs
    · rw [ha]
      exact ⟨by simp, by simp⟩
    · rw [Dict.get?_set_self]
      refine ⟨?_, by simp⟩
      intro e he
      cases he
      exact ⟨hu.uses, rfl, le_refl _, rfl⟩
  | some prev =>
    obtain ⟨h1, h2, h3, h4⟩ := h.run prev ha
    have hw : w.filter (fun endT => (t : WithTop ℚ) ≤ endT) = some prev.endT := by
      rw [h4, Option.filter_eq_some_iff]
      exact ⟨rfl, by simpa using hl prev ha⟩
    rw [hw]
    simp only [Dict.get?_set_self]
    refine ⟨?_, by simp⟩
    intro e he
    cases he
    refine ⟨?_, rfl, h3, ?_⟩
    · simp [h1, hu.maxUses]
    · simp only [max_subTime]

/-- The times at which the effect is given during an execution. -/
def givenIn (slot : Slot) (name : String) (tr : List (DamageState × Event)) : List ℚ :=
  (tr.filter (fun p => p.2.secondary.isNone && decide (GivesTo slot name p.2))).map (·.2.primary)

/-- What is required of all events in the queue. -/
structure QueueOk (slot : Slot) (name : String) (spec : StatusEffectSpec) (e : Event) : Prop where
  regular : Regular e
  nonempty : e.targets ≠ []
  nodup : e.targets.Nodup
  gives : GivesOrLeaves slot name spec e

/-- The second part of a split event with one target. -/
theorem processEvent_split {s s' : DamageState} {e : Event} (ho : s.events.Ok)
    (h : processEvent s e = .ok s') :
    s'.events.Ok ∧ (e.secondary = none → s'.events = s.events) ∧
    ∀ secondary, e.secondary = some secondary → e.targets ≠ [] → e.targets.length ≤ 1 →
      ∃ e', s'.events.q.Perm (e' :: s.events.q) ∧ e'.secondary = none ∧ e'.primary = secondary ∧
        e'.skill = e.skill ∧ e'.targets = e.targets ∧
        ∀ slot : Slot, match slot.status e with
          | .flag false => slot.status e' = .flag false
          | _ => ∃ b, slot.status e' = .done b := by
  refine ⟨(processEvent_queue ho h).1, ?_, ?_⟩
  · intro hn
    rcases (processEvent_queue ho h).2 with ⟨-, h1⟩ | ⟨sec, es, h1, -⟩
    · exact h1
    · rw [hn] at h1
      cases h1
  · intro secondary hsec hne hl
    unfold processEvent at h
    rw [hsec] at h
    obtain ⟨c1, c2, buffs, es, c3, c4, c5⟩ := snapshotEvent_spec (by exact ho) h
    have hone : ∃ a, e.targets = [a] := by
      rcases ht : e.targets with _ | ⟨a, _ | ⟨b, l⟩⟩
      · exact absurd ht hne
      · exact ⟨a, rfl⟩
      · rw [ht] at hl
        simp at hl
    obtain ⟨a, ha⟩ := hone
    rw [ha] at c4
    simp only [List.zipIdx_cons, List.zipIdx_nil] at c4
    cases c4 with
    | cons c6 c7 =>
      cases c7
      obtain ⟨-, a1, a2, a3, a4, a5, -, -, a8, a9⟩ := c6
      refine ⟨_, c5.trans (List.perm_append_singleton _ _), a2, ?_, a3, by rw [a5, ha], ?_⟩
      · rw [a1, ha]
        simp [targetTime]
      · intro slot
        cases slot with
        | buffs =>
          unfold Slot.status
          rw [a8]
          rcases hst : e.snapshotBuffs with (_ | _) | b
          · simp only [hst] at c3 ⊢
            exact c3
          · simp only [hst] at c3 ⊢
            obtain ⟨b, hb, -⟩ := c3
            exact ⟨b, hb⟩
          · simp only [hst] at c3 ⊢
            exact ⟨b, c3⟩
        | debuffs target =>
          unfold Slot.status
          rcases hst : e.snapshotDebuffs with (_ | _) | b
          · simp only [hst] at a9 ⊢
            exact a9
          · simp only [hst] at a9 ⊢
            obtain ⟨b, hb, -⟩ := a9
            exact ⟨b, hb⟩
          · simp only [hst] at a9 ⊢
            exact ⟨b, a9⟩

theorem givesOrLeaves_congr {slot : Slot} {name : String} {spec : StatusEffectSpec} {e e' : Event}
    (hs : e'.skill = e.skill) (ht : e'.targets = e.targets) (h : GivesOrLeaves slot name spec e) :
    GivesOrLeaves slot name spec e' := by
  unfold GivesOrLeaves GivesTo at *
  rw [hs, ht]
  exact h

theorem givesTo_congr {slot : Slot} {name : String} {e e' : Event}
    (hs : e'.skill = e.skill) (ht : e'.targets = e.targets) :
    GivesTo slot name e' ↔ GivesTo slot name e := by
  unfold GivesTo
  rw [hs, ht]

theorem processEvent_queueOk {slot : Slot} {name : String} {spec : StatusEffectSpec}
    {s s' : DamageState} {e : Event} (ho : s.events.Ok) (he : QueueOk slot name spec e)
    (hq : ∀ b ∈ s.events.q, QueueOk slot name spec b) (h : processEvent s e = .ok s') :
    ∀ b ∈ s'.events.q, QueueOk slot name spec b := by
  intro b hb
  obtain ⟨-, h1, h2⟩ := processEvent_split ho h
  have hr := processEvent_regular ho he.regular (fun b hb => (hq b hb).regular) h b hb
  cases hsec : e.secondary with
  | none =>
    rw [h1 hsec] at hb
    exact hq b hb
  | some sec =>
    obtain ⟨e', h3, h4, h5, h6, h7, -⟩ :=
      h2 sec hsec he.nonempty (he.regular.targets (by rw [hsec]; simp))
    rw [h3.mem_iff, List.mem_cons] at hb
    rcases hb with rfl | hb
    · exact ⟨hr.1, by rw [h7]; exact he.nonempty, by rw [h7]; exact he.nodup,
        givesOrLeaves_congr h6 h7 he.gives⟩
    · exact hq b hb

/-- One iteration, seen from one effect. -/
theorem processEvent_sim {slot : Slot} {name : String} {spec : StatusEffectSpec}
    (hu : Unlimited spec) {s s' : DamageState} {e : Event} {t : ℚ} {w : Option (WithTop ℚ)}
    (he : QueueOk slot name spec e) (hwf : WellFormed s.db.se) (hp : name ∉ s.db.se.priority)
    (ht : t ≤ e.primary) (hsim : Sim spec t (entry s.db.se slot name) w)
    (h : processEvent s e = .ok s') :
    (Sim spec e.primary (entry (startSe s e) slot name) w ∧
      ∀ a, entry (startSe s e) slot name = some a → (e.primary : WithTop ℚ) ≤ a.endT) ∧
    WellFormed s'.db.se ∧ s'.db.se.priority = s.db.se.priority ∧
    Sim spec e.primary (entry s'.db.se slot name)
      (if e.secondary.isNone ∧ GivesTo slot name e then endAfter spec w e.primary else w) := by
  have h0 := hsim.expire ht
  rw [← entry_expire hwf] at h0
  have hwf0 : WellFormed (startSe s e) := expire_wf hwf _
  have hp0 : name ∉ (startSe s e).priority := hp
  refine ⟨h0, ?_⟩
  unfold processEvent at h
  simp only at h
  cases hsec : e.secondary with
  | none =>
    rw [hsec] at h
    obtain ⟨se, m, h1, h2⟩ := applyEvent_used name he.nodup hsec h
    obtain ⟨a1, a2, a3⟩ := h1 hwf0 hp0
    have a3 := a3 slot
    rw [h0.1.use, ite_self] at a3
    have hgl := he.gives
    refine ⟨add_wf a1 h2, (priority_add h2).trans a2, ?_⟩
    by_cases hg : GivesTo slot name e
    · have hgl := hgl.1 hg
      rw [if_pos ⟨rfl, hg⟩]
      have hname : e.skill.name = name := hg.1
      have h3 := get?_grant (hgl m) h2
      rw [if_neg (by rintro ⟨-, h⟩; rw [hu.clear] at h; cases h), hname] at h3
      unfold entry
      rw [h3]
      unfold entry at a3 h0
      refine Sim.grant hu ?_ ?_
      · rw [a3]
        exact h0.1
      · rw [a3]
        exact h0.2
    · have hgl := hgl.2 hg
      rw [if_neg (fun h => hg h.2)]
      have h3 := get?_add_leaves h2 (hgl e.primary m)
      unfold entry at a3 h0 ⊢
      rw [h3, a3]
      exact h0.1
  | some sec =>
    rw [hsec] at h
    obtain ⟨a1, a2, a3⟩ := snapshotEvent_used name he.nodup hsec h hwf0 hp0
    have a3 := a3 slot
    rw [h0.1.use, ite_self] at a3
    refine ⟨a1, a2, ?_⟩
    rw [if_neg (by simp), a3]
    exact h0.1

theorem givenIn_nil (slot : Slot) (name : String) : givenIn slot name [] = [] := rfl

theorem givenIn_cons (slot : Slot) (name : String) (p : DamageState × Event)
    (tr : List (DamageState × Event)) :
    givenIn slot name (p :: tr) =
      (if p.2.secondary.isNone ∧ GivesTo slot name p.2 then [p.2.primary] else []) ++
        givenIn slot name tr := by
  unfold givenIn
  rw [List.filter_cons]
  by_cases h : p.2.secondary.isNone ∧ GivesTo slot name p.2
  · rw [if_pos (by simpa using h), if_pos h]
    rfl
  · rw [if_neg (by simpa using h), if_neg h]
    rfl

theorem reaches_sim {slot : Slot} {name : String} {spec : StatusEffectSpec} (hu : Unlimited spec)
    {s s' : DamageState} {tr : List (DamageState × Event)} (h : Reaches s tr s') (ho : s.events.Ok)
    (hq : ∀ b ∈ s.events.q, QueueOk slot name spec b) (hwf : WellFormed s.db.se)
    (hp : name ∉ s.db.se.priority) {t : ℚ} {w : Option (WithTop ℚ)}
    (hlow : ∀ p ∈ tr, t ≤ p.2.primary) (hsorted : tr.Pairwise (fun p p' => p.2.primary ≤ p'.2.primary))
    (hsim : Sim spec t (entry s.db.se slot name) w) :
    ∀ l p r, tr = l ++ p :: r →
      WellFormed (startSe p.1 p.2) ∧ name ∉ (startSe p.1 p.2).priority ∧
      Sim spec p.2.primary (entry (startSe p.1 p.2) slot name)
        ((givenIn slot name l).foldl (endAfter spec) w) ∧
      ∀ a, entry (startSe p.1 p.2) slot name = some a → (p.2.primary : WithTop ℚ) ≤ a.endT := by
  induction h generalizing t w with
  | refl s =>
    intro l p r hl
    simp at hl
  | step s s1 s2 e evs tr h1 h2 h3 ih =>
    obtain ⟨o1, o2, o3, -⟩ := Events.getNext_spec ho h1
    have hee : e ∈ s.events.q := o2.mem_iff.2 (by simp)
    have hqe := hq e hee
    have hq1 := processEvent_queueOk (s := { s with events := evs }) o1 hqe
      (fun b hb => hq b (o2.mem_iff.2 (List.mem_cons_of_mem _ hb))) h2
    obtain ⟨c0, c1, c2, c3⟩ := processEvent_sim hu (s := { s with events := evs }) hqe hwf hp
      (hlow _ List.mem_cons_self) hsim h2
    rw [List.pairwise_cons] at hsorted
    have ih := ih (processEvent_queue (s := { s with events := evs }) o1 h2).1 hq1 c1
      (by rw [c2]; exact hp) (fun p hp => hsorted.1 p hp) hsorted.2 c3
    intro l p r hl
    cases l with
    | nil =>
      simp only [List.nil_append, List.cons.injEq] at hl
      obtain ⟨rfl, -⟩ := hl
      exact ⟨expire_wf hwf _, hp, c0.1, c0.2⟩
    | cons p' l =>
      simp only [List.cons_append, List.cons.injEq] at hl
      obtain ⟨rfl, hl⟩ := hl
      have := ih l p r hl
      rw [givenIn_cons, List.foldl_append]
      split_ifs with hc
      · rw [if_pos hc] at this
        exact this
      · rw [if_neg hc] at this
        exact this

/-- What is asked for in an iteration. -/
theorem seen_iff {slot : Slot} {name : String} {spec : StatusEffectSpec} {s : DamageState}
    {e : Event} {w : Option (WithTop ℚ)} (hwf : WellFormed (startSe s e))
    (hp : name ∉ (startSe s e).priority)
    (hsim : Sim spec e.primary (entry (startSe s e) slot name) w)
    (hl : ∀ a, entry (startSe s e) slot name = some a → (e.primary : WithTop ℚ) ≤ a.endT)
    {agg : StatusEffects} {c : String} {se : StatusEffectTracker}
    (h : slot.compile (startSe s e) e.primary e.skill.toSkillCore = .ok ((agg, c), se)) :
    name ∈ agg.statusEffects ↔ Allowed e.skill.toSkillCore name spec ∧
      ∃ endT, w = some endT ∧ (e.primary : WithTop ℚ) ≤ endT := by
  obtain ⟨-, -, -, h1⟩ := compile_entry hwf hp h
  rw [h1]
  constructor
  · rintro ⟨a, h2, h3, h4⟩
    obtain ⟨b1, b2, b3, b4⟩ := hsim.run a h2
    rw [b2] at h4
    exact ⟨h4, _, b4, hl a h2⟩
  · rintro ⟨h2, endT, h3, h4⟩
    cases ha : entry (startSe s e) slot name with
    | none => exact absurd (hsim.over ha endT h3) (not_lt.2 h4)
    | some a =>
      obtain ⟨b1, b2, b3, b4⟩ := hsim.run a ha
      exact ⟨a, rfl, b3, by rw [b2]; exact h2⟩

/-! ## Applications in an execution -/

/-- What is applied where and when, as far as given effects are concerned. -/
theorem reaches_given {slot : Slot} {name : String} {spec : StatusEffectSpec} {s s' : DamageState}
    {tr : List (DamageState × Event)} (h : Reaches s tr s') (ho : s.events.Ok)
    (hend : s'.events.q = []) (hq : ∀ b ∈ s.events.q, QueueOk slot name spec b) :
    (givenIn slot name tr).Perm
      ((s.events.q.filter (fun e => decide (GivesTo slot name e))).map appliedAt) := by
  induction h with
  | refl s =>
    rw [hend]
    exact .refl _
  | step s s1 s2 e evs tr h1 h2 h3 ih =>
    obtain ⟨o1, o2, o3, -⟩ := Events.getNext_spec ho h1
    have hee : e ∈ s.events.q := o2.mem_iff.2 (by simp)
    have hqe := hq e hee
    have hq1 := processEvent_queueOk (s := { s with events := evs }) o1 hqe
      (fun b hb => hq b (o2.mem_iff.2 (List.mem_cons_of_mem _ hb))) h2
    obtain ⟨p1, p2, p3⟩ := processEvent_split (s := { s with events := evs }) o1 h2
    have ih := ih p1 hend hq1
    rw [givenIn_cons]
    have hperm := ((o2.filter (fun e => decide (GivesTo slot name e))).map appliedAt).symm
    refine List.Perm.trans ?_ hperm
    cases hsec : e.secondary with
    | none =>
      rw [p2 hsec] at ih
      simp only at ih
      rw [List.filter_cons]
      by_cases hg : GivesTo slot name e
      · simp only [hsec, hg, Option.isNone_none, and_self, if_true, decide_true, List.map_cons]
        have : appliedAt e = e.primary := by simp [appliedAt, hsec]
        rw [this]
        exact ih.cons _
      · simpa [hsec, hg] using ih
    | some sec =>
      obtain ⟨e', q1, q2, q3, q4, q5, -⟩ := p3 sec hsec hqe.nonempty
        (hqe.regular.targets (by rw [hsec]; simp))
      simp only [hsec, Option.isNone_some, Bool.false_eq_true, false_and, if_false, List.nil_append]
      refine ih.trans ((q1.filter _).map _ |>.trans ?_)
      simp only [List.filter_cons, givesTo_congr q4 q5]
      split_ifs
      · simp [appliedAt, hsec, q2, q3]
      · exact .refl _

end Ama
