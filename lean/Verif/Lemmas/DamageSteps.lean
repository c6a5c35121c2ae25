import Verif.Spec.Damage
import Verif.Lemmas.Strings
import Verif.Lemmas.Events
import Verif.Lemmas.BuilderShift
import Verif.Lemmas.StatusEffects

/-!
# Lemmas about one iteration of the damage builder
-/

namespace Ama

open Spec DamageBuilder

theorem isPySpace_digit {c : Char} (h : c.isDigit = true) : isPySpace c = false := by
  rw [Char.isDigit_iff_toNat] at h
  by_contra hc
  rw [Bool.not_eq_false] at hc
  have h0 : '0'.toNat = 48 := rfl
  have h9 : '9'.toNat = 57 := rfl
  simp only [isPySpace] at hc
  simp at hc
  omega

theorem cleanName_target (k : ℕ) : CleanName ("Target " ++ toString k) := by
  have hd : ∀ c ∈ (toString k).toList, c.isDigit = true := by
    intro c hc
    rw [Nat.toString_eq_ofList_toDigits, String.toList_ofList] at hc
    exact Nat.isDigit_of_mem_toDigits (by decide) (by decide) hc
  have hne : (toString k).toList ≠ [] := by
    rw [Nat.toString_eq_ofList_toDigits, String.toList_ofList]
    exact Nat.toDigits_ne_nil
  refine ⟨?_, ?_, ?_⟩
  · rw [String.toList_append, List.mem_append, not_or]
    refine ⟨by decide, fun h => ?_⟩
    have := hd _ h
    simp [Char.isDigit] at this
  · intro x hx
    rw [String.toList_append] at hx
    have : ("Target ".toList ++ (toString k).toList).head? = some 'T' := rfl
    rw [this] at hx
    cases hx
    decide
  · intro x hx
    rw [String.toList_append, List.getLast?_append_of_ne_nil _ hne] at hx
    exact isPySpace_digit (hd x (List.mem_of_getLast? hx))

theorem canonicalize_target (k : ℕ) :
    Utils.canonicalizeCondition ("Target " ++ toString k) = {"Target " ++ toString k} := by
  have h := canonicalize_strJoin [] (by simp) ["Target " ++ toString k]
    (by simpa using cleanName_target k) (by
      intro h
      have h := congrArg (fun l => (l.map (fun s => s.toList.head?))) h
      rw [List.map_cons, List.map_nil, String.toList_append] at h
      have : ("Target ".toList ++ (toString k).toList).head? = some 'T' := rfl
      rw [this] at h
      simp at h)
  have e : strJoin (String.ofList [',']) ["Target " ++ toString k] = "Target " ++ toString k := by
    generalize "Target " ++ toString k = s
    simp [strJoin, joinWith]
  rw [e] at h
  rw [h]
  simp

namespace Spec.Widens

theorem refl (m : SkillModifier) : Widens m m := ⟨rfl, Finset.Subset.refl _⟩

theorem trans {a b c : SkillModifier} (h : Widens a b) (h' : Widens b c) : Widens a c := by
  refine ⟨?_, h.2.trans h'.2⟩
  rw [h'.1, h.1]

theorem addToCondition {a b : SkillModifier} (h : Widens a b) (c : String) :
    Widens a (b.addToCondition c) := by
  refine h.trans ?_
  unfold SkillModifier.addToCondition
  split_ifs
  · exact refl b
  · exact ⟨rfl, Finset.subset_union_left⟩

theorem addConditions {a b : SkillModifier} (h : Widens a b) (c : Conds) :
    Widens a (b.addConditions c) := by
  refine h.trans ?_
  unfold SkillModifier.addConditions
  split_ifs
  · exact refl b
  · exact ⟨rfl, Finset.subset_union_left⟩

theorem addPositional {a b m : SkillModifier} {skill : Skill} (h : Widens a b)
    (he : Utils.addPositional skill b = .ok m) : Widens a m := by
  unfold Utils.addPositional at he
  split at he
  · cases he; exact h.addConditions _
  · cases he; exact h
  · cases he

theorem targetModifier {a b : SkillModifier} (h : Widens a b) (n i : ℕ) :
    Widens a (DamageBuilder.targetModifier n i b) := by
  unfold DamageBuilder.targetModifier
  split_ifs
  · exact h.addToCondition _
  · exact h

end Spec.Widens

theorem mem_targetModifier {n i : ℕ} (hn : n > 1) (m : SkillModifier) :
    "Target " ++ toString (i + 1) ∈ (targetModifier n i m).withCondition := by
  unfold targetModifier
  rw [if_pos hn]
  unfold SkillModifier.addToCondition
  rw [if_neg]
  · simp only [Finset.mem_union]
    right
    rw [canonicalize_target]
    simp
  · rw [String.toList_append]
    simp

/-! ## The parts of an iteration -/

theorem addGauges_spec {db db' : DamageBuilder} {t : ℚ} {skill : Skill} {a m m' : SkillModifier}
    (hm : Widens a m) (h : db.addGauges t skill m = .ok (m', db')) : Widens a m' ∧ db'.se = db.se := by
  unfold addGauges at h
  obtain ⟨⟨c, r⟩, _, h⟩ := Py.bind_eq_ok.1 h
  cases h
  exact ⟨hm.addToCondition _, rfl⟩

theorem changeGauges_spec {db db' : DamageBuilder} {t : ℚ} {skill : Skill} {m : SkillModifier}
    (h : db.changeGauges t skill m = .ok db') : db'.se = db.se := by
  unfold changeGauges at h
  obtain ⟨_, _, h⟩ := Py.bind_eq_ok.1 h
  cases h
  rfl

theorem addCombo_spec {db db' : DamageBuilder} {t : ℚ} {skill : Skill} {a m m' : SkillModifier}
    (hm : Widens a m) (h : db.addCombo t skill m = .ok (m', db')) : Widens a m' ∧ db'.se = db.se := by
  unfold addCombo at h
  obtain ⟨⟨c, r⟩, _, h⟩ := Py.bind_eq_ok.1 h
  obtain ⟨m1, h1, h⟩ := Py.bind_eq_ok.1 h
  cases h
  exact ⟨(hm.addToCondition _).addPositional h1, rfl⟩

/-- The two trackers agree on what matters for debuffs. -/
def SameDebuffs (a b : StatusEffectTracker) (target : String) : Prop :=
  a.priority = b.priority ∧ a.lookupDebuffs target = b.lookupDebuffs target

theorem takeBuffs_spec {db db' : DamageBuilder} {t : ℚ} {skill : Skill} {a m m' : SkillModifier}
    {b : StatusEffects} (hm : Widens a m) (h : db.takeBuffs t skill m = .ok (b, m', db')) :
    Widens a m' ∧ (∀ target, SameDebuffs db'.se db.se target) ∧
      ∃ c se, db.se.compileBuffs t skill.toSkillCore = .ok ((b, c), se) := by
  unfold takeBuffs at h
  obtain ⟨⟨⟨b, c⟩, se⟩, h1, h⟩ := Py.bind_eq_ok.1 h
  cases h
  refine ⟨hm.addToCondition _, ?_, c, se, h1⟩
  unfold StatusEffectTracker.compileBuffs at h1
  obtain ⟨⟨b1, c1, es⟩, _, h2⟩ := Py.bind_eq_ok.1 h1
  cases h2
  exact fun _ => ⟨rfl, rfl⟩

theorem takeDebuffs_spec {db db' : DamageBuilder} {t : ℚ} {skill : Skill} {a m m' : SkillModifier}
    {b : StatusEffects} {target : String} (hm : Widens a m)
    (h : db.takeDebuffs t skill m target = .ok (b, m', db')) :
    Widens a m' ∧ (∀ target', target' ≠ target → SameDebuffs db'.se db.se target') ∧
      ∃ c se, db.se.compileDebuffs t skill.toSkillCore target = .ok ((b, c), se) := by
  unfold takeDebuffs at h
  obtain ⟨⟨⟨b, c⟩, se⟩, h1, h⟩ := Py.bind_eq_ok.1 h
  cases h
  refine ⟨hm.addToCondition _, ?_, c, se, h1⟩
  unfold StatusEffectTracker.compileDebuffs at h1
  obtain ⟨⟨b1, c1, es⟩, _, h2⟩ := Py.bind_eq_ok.1 h1
  cases h2
  intro target' hne
  refine ⟨rfl, ?_⟩
  simp only [StatusEffectTracker.lookupDebuffs, StatusEffectTracker.setDebuffs]
  rw [Dict.get?_set_ne _ _ hne.symm]

theorem compileDebuffs_same {a b : StatusEffectTracker} {t : ℚ} {skill : SkillCore}
    {target : String} (h : SameDebuffs a b target) {d : StatusEffects}
    (hc : ∃ c se, a.compileDebuffs t skill target = .ok ((d, c), se)) :
    ∃ c se, b.compileDebuffs t skill target = .ok ((d, c), se) := by
  obtain ⟨c, se, hc⟩ := hc
  unfold StatusEffectTracker.compileDebuffs at hc ⊢
  rw [h.1, h.2] at hc
  obtain ⟨⟨b1, c1, es⟩, h1, h2⟩ := Py.bind_eq_ok.1 hc
  cases h2
  rw [h1]
  exact ⟨_, _, rfl⟩

theorem gaugesIf_spec {c : Bool} {db db' : DamageBuilder} {t : ℚ} {skill : Skill}
    {a m m' : SkillModifier} (hm : Widens a m) (h : gaugesIf c db t skill m = .ok (m', db')) :
    Widens a m' ∧ db'.se = db.se := by
  unfold gaugesIf at h
  split_ifs at h
  · exact addGauges_spec hm h
  · cases h
    exact ⟨hm, rfl⟩

theorem comboIf_spec {c : Bool} {db db' : DamageBuilder} {t : ℚ} {skill : Skill}
    {a m m' : SkillModifier} (hm : Widens a m) (h : comboIf c db t skill m = .ok (m', db')) :
    Widens a m' ∧ db'.se = db.se := by
  unfold comboIf at h
  split_ifs at h
  · exact addCombo_spec hm h
  · cases h
    exact ⟨hm, rfl⟩

theorem changeIf_spec {c : Bool} {db db' : DamageBuilder} {t : ℚ} {skill : Skill}
    {m : SkillModifier} (h : changeIf c db t skill m = .ok db') : db'.se = db.se := by
  unfold changeIf at h
  split_ifs at h
  · exact changeGauges_spec h
  · cases h
    rfl

theorem finalBuffs_spec {st : SnapStatus} {db db' : DamageBuilder} {t : ℚ} {skill : Skill}
    {a m m' : SkillModifier} {b : StatusEffects} (hm : Widens a m)
    (h : finalBuffs st db t skill m = .ok (b, m', db')) :
    Widens a m' ∧ (∀ target, SameDebuffs db'.se db.se target) ∧
      match (generalizing := false) st with
      | .done b' => b = b'
      | .flag _ => ∃ c se, db.se.compileBuffs t skill.toSkillCore = .ok ((b, c), se) := by
  unfold finalBuffs at h
  cases st with
  | done b' =>
    cases h
    exact ⟨hm, fun _ => ⟨rfl, rfl⟩, rfl⟩
  | flag f => exact takeBuffs_spec hm h

theorem snapBuffs_spec {st st' : SnapStatus} {db db' : DamageBuilder} {t : ℚ} {skill : Skill}
    {a m m' : SkillModifier} (hm : Widens a m)
    (h : snapBuffs st db t skill m = .ok (st', m', db')) :
    Widens a m' ∧ (∀ target, SameDebuffs db'.se db.se target) ∧
      match (generalizing := false) st with
      | .done b => st' = .done b
      | .flag true => ∃ b, st' = .done b ∧
          ∃ c se, db.se.compileBuffs t skill.toSkillCore = .ok ((b, c), se)
      | .flag false => st' = .flag false := by
  unfold snapBuffs at h
  rcases st with (_ | _) | b'
  · cases h
    exact ⟨hm, fun _ => ⟨rfl, rfl⟩, rfl⟩
  · obtain ⟨⟨b, m1, db1⟩, h1, h⟩ := Py.bind_eq_ok.1 h
    cases h
    obtain ⟨h2, h3, h4⟩ := takeBuffs_spec hm h1
    exact ⟨h2, h3, b, rfl, h4⟩
  · cases h
    exact ⟨hm, fun _ => ⟨rfl, rfl⟩, rfl⟩

theorem pushInstance_spec {q q' : List DamageInstance} {x : DamageInstance}
    (h : pushInstance q x = .ok q') :
    (∃ sp, x.skill.getDamageSpec x.modifier = .ok sp) ∧
      q'.Perm (q ++ [x].filter deals) := by
  unfold pushInstance at h
  obtain ⟨sp, h1, h⟩ := Py.bind_eq_ok.1 h
  refine ⟨⟨sp, h1⟩, ?_⟩
  cases sp with
  | none =>
    cases h
    have : deals x = false := by simp [deals, h1]
    simp [this]
  | some sp =>
    have : deals x = true := by simp [deals, h1]
    have hp := (Heapq.heappush_spec (key := fun _ : DamageInstance => ()) (fun _ _ _ _ => by
      simp) (by intro i a b _ _ _; exact le_refl _) h).2
    simp only [List.filter_cons, this, if_true, List.filter_nil]
    exact hp.trans (List.perm_append_singleton x q).symm

/-! ## The loops over targets -/

/-- What the loop at application time does for one target. -/
def Applied (e : Event) (buffs : StatusEffects) (se0 : StatusEffectTracker) (N : Prop)
    (ti : String × ℕ) (x : DamageInstance) : Prop :=
  x.time = targetTime e.targets.length ti.2 e.primary ∧ x.skill = e.skill ∧ x.eventId = e.eventId ∧
  x.target = ti.1 ∧ Widens e.modifier x.modifier ∧
  (e.targets.length > 1 → "Target " ++ toString (ti.2 + 1) ∈ x.modifier.withCondition) ∧
  (∃ sp, x.skill.getDamageSpec x.modifier = .ok sp) ∧ x.buffs = buffs ∧
  match e.snapshotDebuffs with
  | .done d => x.debuffs = d
  | .flag _ => N → ∃ c se, se0.compileDebuffs e.primary e.skill.toSkillCore ti.1 =
      .ok ((x.debuffs, c), se)

theorem applyTarget_spec {e : Event} {buffs : StatusEffects} {se0 : StatusEffectTracker} {N : Prop}
    {s s' : DamageState} {m m' : SkillModifier} {ti : String × ℕ}
    (hm : Widens e.modifier m) (hs : N → SameDebuffs s.db.se se0 ti.1)
    (h : applyTarget e buffs (s, m) ti = .ok (s', m')) :
    Widens e.modifier m' ∧ s'.events = s.events ∧
    (∀ target, target ≠ ti.1 → SameDebuffs s'.db.se s.db.se target) ∧
    ∃ x, Applied e buffs se0 N ti x ∧ s'.q.Perm (s.q ++ [x].filter deals) := by
  unfold applyTarget at h
  simp only at h
  obtain ⟨⟨d, mu, db⟩, h1, h⟩ := Py.bind_eq_ok.1 h
  obtain ⟨q, h2, h⟩ := Py.bind_eq_ok.1 h
  simp only [Py.pure_eq, Except.ok.injEq, Prod.mk.injEq] at h
  obtain ⟨rfl, rfl⟩ := h
  obtain ⟨hsp, hq⟩ := pushInstance_spec h2
  have key : Widens e.modifier mu ∧
      (e.targets.length > 1 → "Target " ++ toString (ti.2 + 1) ∈ mu.withCondition) ∧
      (∀ target, target ≠ ti.1 → SameDebuffs db.se s.db.se target) ∧
      match e.snapshotDebuffs with
      | .done d' => d = d'
      | .flag _ => N → ∃ c se, se0.compileDebuffs e.primary e.skill.toSkillCore ti.1 =
          .ok ((d, c), se) := by
    cases hd : e.snapshotDebuffs with
    | done d' =>
      rw [hd] at h1
      cases h1
      exact ⟨hm.targetModifier _ _, fun hn => mem_targetModifier hn _, fun _ _ => ⟨rfl, rfl⟩, rfl⟩
    | flag b =>
      rw [hd] at h1
      unfold finalDebuffs at h1
      obtain ⟨h3, h4, h5⟩ := takeDebuffs_spec (Widens.refl _) h1
      exact ⟨(hm.targetModifier _ _).trans h3, fun hn => h3.2 (mem_targetModifier hn _), h4,
        fun hN => compileDebuffs_same (hs hN) h5⟩
  obtain ⟨k1, k2, k3, k4⟩ := key
  refine ⟨?_, rfl, k3, _, ⟨rfl, rfl, rfl, rfl, k1, k2, hsp, rfl, k4⟩, hq⟩
  split_ifs
  · exact hm
  · exact k1

theorem applyTargets_spec {e : Event} {buffs : StatusEffects} {se0 : StatusEffectTracker} {N : Prop}
    {l : List (String × ℕ)} {s s' : DamageState} {m m' : SkillModifier}
    (hm : Widens e.modifier m) (hN : N → (l.map Prod.fst).Nodup)
    (hs : N → ∀ target ∈ l.map Prod.fst, SameDebuffs s.db.se se0 target)
    (h : l.foldlM (applyTarget e buffs) (s, m) = .ok (s', m')) :
    s'.events = s.events ∧
    ∃ xs, List.Forall₂ (Applied e buffs se0 N) l xs ∧ s'.q.Perm (s.q ++ xs.filter deals) := by
  induction l generalizing s m with
  | nil =>
    cases h
    exact ⟨rfl, [], .nil, by simp⟩
  | cons ti l ih =>
    rw [Py.foldlM_cons] at h
    obtain ⟨⟨s1, m1⟩, h1, h2⟩ := Py.bind_eq_ok.1 h
    obtain ⟨a1, a2, a3, x, a4, a5⟩ := applyTarget_spec hm (fun n => hs n _ (by simp)) h1
    obtain ⟨b1, xs, b2, b3⟩ := ih a1 (fun n => (List.nodup_cons.1 (hN n)).2) (by
      intro n target ht
      have hne : target ≠ ti.1 := by
        rintro rfl
        exact (List.nodup_cons.1 (hN n)).1 ht
      have h3 := a3 target hne
      have h4 := hs n target (List.mem_cons_of_mem _ ht)
      exact ⟨h3.1.trans h4.1, h3.2.trans h4.2⟩) h2
    refine ⟨b1.trans a2, x :: xs, .cons a4 b2, ?_⟩
    refine b3.trans ?_
    have : (x :: xs).filter deals = [x].filter deals ++ xs.filter deals := by
      rw [← List.filter_append]
      rfl
    rw [this, ← List.append_assoc]
    exact a5.append_right _

/-- What the loop at snapshot time does for one target. -/
def Snapped (e : Event) (secondary : ℚ) (prio : ℤ) (buffs : SnapStatus) (se0 : StatusEffectTracker)
    (N : Prop) (ti : String × ℕ) (e' : Event) : Prop :=
  e'.priority = prio ∧
  e'.primary = targetTime e.targets.length ti.2 secondary ∧ e'.secondary = none ∧
  e'.skill = e.skill ∧ e'.eventId = e.eventId ∧
  e'.targets = [ti.1] ∧ Widens e.modifier e'.modifier ∧
  (e.targets.length > 1 → "Target " ++ toString (ti.2 + 1) ∈ e'.modifier.withCondition) ∧
  e'.snapshotBuffs = buffs ∧
  match e.snapshotDebuffs with
  | .done d => e'.snapshotDebuffs = .done d
  | .flag true => ∃ d, e'.snapshotDebuffs = .done d ∧
      (N → ∃ c se, se0.compileDebuffs e.primary e.skill.toSkillCore ti.1 = .ok ((d, c), se))
  | .flag false => e'.snapshotDebuffs = .flag false

theorem snapshotTarget_spec {e : Event} {secondary : ℚ} {prio : ℤ} {buffs : SnapStatus}
    {jp cp : Bool} {se0 : StatusEffectTracker} {N : Prop}
    {s s' : DamageState} {m m' : SkillModifier} {ti : String × ℕ} (ho : s.events.Ok)
    (hm : Widens e.modifier m) (hs : N → SameDebuffs s.db.se se0 ti.1)
    (h : snapshotTarget e secondary prio buffs jp cp (s, m) ti = .ok (s', m')) :
    Widens e.modifier m' ∧ s'.events.Ok ∧ s'.q = s.q ∧
    (∀ target, target ≠ ti.1 → SameDebuffs s'.db.se s.db.se target) ∧
    ∃ e', Snapped e secondary prio buffs se0 N ti e' ∧ s'.events.q.Perm (e' :: s.events.q) := by
  unfold snapshotTarget at h
  simp only at h
  obtain ⟨⟨d, mu, db⟩, h1, h⟩ := Py.bind_eq_ok.1 h
  obtain ⟨evs, h2, h⟩ := Py.bind_eq_ok.1 h
  simp only [Py.pure_eq, Except.ok.injEq, Prod.mk.injEq] at h
  obtain ⟨rfl, rfl⟩ := h
  obtain ⟨evs', h3, h4, h5, -⟩ := Events.add_spec s.events ho _
  rw [h2] at h3
  cases h3
  have key : Widens e.modifier mu ∧
      (e.targets.length > 1 → "Target " ++ toString (ti.2 + 1) ∈ mu.withCondition) ∧
      (∀ target, target ≠ ti.1 → SameDebuffs db.se s.db.se target) ∧
      match e.snapshotDebuffs with
      | .done d' => d = .done d'
      | .flag true => ∃ d', d = .done d' ∧
          (N → ∃ c se, se0.compileDebuffs e.primary e.skill.toSkillCore ti.1 = .ok ((d', c), se))
      | .flag false => d = .flag false := by
    cases hd : e.snapshotDebuffs with
    | done d' =>
      rw [hd] at h1
      cases h1
      exact ⟨hm.targetModifier _ _, fun hn => mem_targetModifier hn _, fun _ _ => ⟨rfl, rfl⟩, rfl⟩
    | flag b =>
      rw [hd] at h1
      cases b with
      | false =>
        cases h1
        exact ⟨hm.targetModifier _ _, fun hn => mem_targetModifier hn _, fun _ _ => ⟨rfl, rfl⟩, rfl⟩
      | true =>
        obtain ⟨⟨d1, mu1, db1⟩, h6, h7⟩ := Py.bind_eq_ok.1 h1
        cases h7
        obtain ⟨h3, h4, h5⟩ := takeDebuffs_spec (Widens.refl _) h6
        exact ⟨(hm.targetModifier _ _).trans h3, fun hn => h3.2 (mem_targetModifier hn _), h4,
          _, rfl, fun hN => compileDebuffs_same (hs hN) h5⟩
  obtain ⟨k1, k2, k3, k4⟩ := key
  refine ⟨?_, h4, rfl, k3, _, ?_, h5⟩
  · split_ifs
    · exact hm
    · exact k1
  refine ⟨rfl, rfl, ?_, rfl, ?_, rfl, k1, k2, ?_, ?_⟩
  · simp [Events.mkEvent]
  · simp [Events.mkEvent, NewEvent.idWith]
  · simp [Events.mkEvent]
  · simpa [Events.mkEvent] using k4

theorem snapshotTargets_spec {e : Event} {secondary : ℚ} {prio : ℤ} {buffs : SnapStatus}
    {jp cp : Bool} {se0 : StatusEffectTracker} {N : Prop}
    {l : List (String × ℕ)} {s s' : DamageState} {m m' : SkillModifier} (ho : s.events.Ok)
    (hm : Widens e.modifier m) (hN : N → (l.map Prod.fst).Nodup)
    (hs : N → ∀ target ∈ l.map Prod.fst, SameDebuffs s.db.se se0 target)
    (h : l.foldlM (snapshotTarget e secondary prio buffs jp cp) (s, m) = .ok (s', m')) :
    s'.events.Ok ∧ s'.q = s.q ∧
    ∃ es, List.Forall₂ (Snapped e secondary prio buffs se0 N) l es ∧
      s'.events.q.Perm (s.events.q ++ es) := by
  induction l generalizing s m with
  | nil =>
    cases h
    exact ⟨ho, rfl, [], .nil, by simp⟩
  | cons ti l ih =>
    rw [Py.foldlM_cons] at h
    obtain ⟨⟨s1, m1⟩, h1, h2⟩ := Py.bind_eq_ok.1 h
    obtain ⟨a1, a2, a3, a4, x, a5, a6⟩ := snapshotTarget_spec ho hm (fun n => hs n _ (by simp)) h1
    obtain ⟨b1, b2, xs, b3, b4⟩ := ih a2 a1 (fun n => (List.nodup_cons.1 (hN n)).2) (by
      intro n target ht
      have hne : target ≠ ti.1 := by
        rintro rfl
        exact (List.nodup_cons.1 (hN n)).1 ht
      have h3 := a4 target hne
      have h4 := hs n target (List.mem_cons_of_mem _ ht)
      exact ⟨h3.1.trans h4.1, h3.2.trans h4.2⟩) h2
    refine ⟨b1, b2.trans a3, x :: xs, .cons a5 b3, ?_⟩
    refine b4.trans ((a6.append_right _).trans ?_)
    exact List.perm_middle.symm

end Ama
