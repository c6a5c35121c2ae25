import Verif.Spec.AnotherTime
import Verif.Lemmas.Shift
import Verif.Lemmas.Extending

/-!
# Lemmas on playing a rotation at another time
-/

namespace Ama

open Spec

namespace RotationBuilder

open Reuse (Rel)

variable {δ : ℚ} {C : Dict String JobResourceSettings}

/-! ## Logs, later -/

def newLater (δ : ℚ) (a : NewEvent) : NewEvent :=
  { a with
    priority := a.priority - Utils.transformTimeToPrio a.primary +
      Utils.transformTimeToPrio (a.primary + δ)
    primary := a.primary + δ
    secondary := a.secondary.map (· + δ) }

def appLater (δ : ℚ) (a : DotApp) : DotApp :=
  { a with snapshot := a.snapshot + δ, application := a.application + δ }

def pressLater (δ : ℚ) (p : Press) : Press := { p with t := p.t + δ }

def logLater (δ : ℚ) (l : Log) : Log where
  adds := l.adds.map (newLater δ)
  dots := l.dots.map (fun x => (x.1, x.2.1, appLater δ x.2.2))
  presses := l.presses.map (pressLater δ)
  stamps := l.stamps.map (fun x => (x.1 + δ, x.2))

theorem logLater_app (l l' : Log) : logLater δ (l.app l') = (logLater δ l).app (logLater δ l') := by
  simp [logLater, Log.app]

/-- The second value is a moved log with a related state. -/
def LogRel (δ : ℚ) {S : Type} (R : S → S → Prop) (x y : Log × S) : Prop :=
  y.1 = logLater δ x.1 ∧ R x.2 y.2

theorem foldLog_later {S A : Type} {R : S → S → Prop} {f g : S → A → Py (Log × S)} {m : A → A}
    (h : ∀ s t a, R s t → Rel (LogRel δ R) (f s a) (g t (m a))) (as : List A) {s t : S} (hs : R s t) :
    Rel (LogRel δ R) (foldLog f s as) (foldLog g t (as.map m)) := by
  induction as generalizing s t with
  | nil => exact ⟨rfl, hs⟩
  | cons a as ih =>
    refine (h s t a hs).bind ?_
    rintro ⟨l, s'⟩ ⟨_, t'⟩ ⟨h1, h2⟩
    obtain rfl : _ = logLater δ l := h1
    refine (ih h2).bind ?_
    rintro ⟨l', s''⟩ ⟨_, t''⟩ ⟨h3, h4⟩
    obtain rfl : _ = logLater δ l' := h3
    exact ⟨(logLater_app _ _).symm, h4⟩

/-! ## One skill -/

/-- The trackers of the moved rotation. -/
def TrRel (δ : ℚ) (C : Dict String JobResourceSettings) (a b : Trackers) : Prop :=
  b.se = Shift.se δ a.se ∧ Shift.ResRel δ C a.res b.res

theorem resolveConditions_later {a b : Trackers} (h : TrRel δ C a b) (t : ℚ) (skill : Skill)
    (m : SkillModifier) :
    Rel (fun x y : StatusEffects × StatusEffects × SkillModifier × Trackers =>
        y.1 = x.1 ∧ y.2.1 = x.2.1 ∧ y.2.2.1 = x.2.2.1 ∧ TrRel δ C x.2.2.2 y.2.2.2)
      (resolveConditions t skill m a) (resolveConditions (t + δ) skill m b) := by
  obtain ⟨h1, h2⟩ := h
  unfold resolveConditions
  simp only [h1, Shift.se_expire]
  refine (Shift.se_compileBuffs _ _ _).bind ?_
  rintro x _ rfl
  refine (Shift.se_compileDebuffs _ _ _ _).bind ?_
  rintro y _ rfl
  refine (Shift.compile_shift h2 _ _).bind ?_
  rintro ⟨c, r⟩ ⟨_, r'⟩ ⟨h3, h4⟩
  obtain rfl : c = _ := h3
  exact ⟨rfl, rfl, rfl, rfl, h4⟩

def ResolvedRel (δ : ℚ) (C : Dict String JobResourceSettings) (x y : Resolved) : Prop :=
  y.buffs = x.buffs ∧ y.debuffs = x.debuffs ∧ y.modifier = x.modifier ∧ TrRel δ C x.tr y.tr ∧
    y.combo = Shift.combo δ x.combo

theorem resolve_later {a b : Trackers} (h : TrRel δ C a b) (t : ℚ) (skill : Skill) (m : SkillModifier)
    (combo : ComboTracker) :
    Rel (ResolvedRel δ C) (resolve t skill m a combo)
      (resolve (t + δ) skill m b (Shift.combo δ combo)) := by
  unfold resolve
  refine (resolveConditions_later h t skill m).bind ?_
  rintro ⟨x1, x2, x3, x4⟩ ⟨y1, y2, y3, y4⟩ ⟨h1, h2, h3, h4⟩
  simp only at h1 h2 h3 h4
  subst h1 h2 h3
  refine (Shift.combo_shift combo t _ _).bind ?_
  rintro ⟨c, r⟩ _ rfl
  refine (Rel.refl (R := Eq) (fun _ => rfl) _).bind ?_
  rintro m' _ rfl
  exact ⟨rfl, rfl, rfl, h4, rfl⟩

theorem followUpLog_later (hC : ∀ kv ∈ C, kv.2.expiryFromLastGain = ⊤) (s a : ℚ)
    (targets : List String) (x y : Trackers) (fi : FollowUp × ℕ) (h : TrRel δ C x y) :
    Rel (LogRel δ (TrRel δ C)) (followUpLog s a targets x fi)
      (followUpLog (s + δ) (a + δ) targets y (id fi)) := by
  unfold followUpLog
  simp only [id]
  split
  · refine ⟨?_, h⟩
    simp [logLater, appLater]
  · have key : ∀ ts : List String, Rel (LogRel δ (TrRel δ C))
        (x.se.add (a + ↑fi.1.delayAfterParentApplication) fi.1.skill {} ts >>= fun se =>
          x.res.addResource (a + ↑fi.1.delayAfterParentApplication) fi.1.skill {} >>= fun res =>
          (pure ({ adds := [followUpEvent fi.1 (↑fi.2 + 1) s a ts] }, { se := se, res := res }) :
            Py (Log × Trackers)))
        (y.se.add (a + δ + ↑fi.1.delayAfterParentApplication) fi.1.skill {} ts >>= fun se =>
          y.res.addResource (a + δ + ↑fi.1.delayAfterParentApplication) fi.1.skill {} >>= fun res =>
          (pure ({ adds := [followUpEvent fi.1 (↑fi.2 + 1) (s + δ) (a + δ) ts] },
            { se := se, res := res }) : Py (Log × Trackers))) := by
      intro ts
      rw [h.1, add_right_comm a δ]
      refine (Shift.se_add _ _ _ _ _).bind ?_
      rintro se _ rfl
      refine (Shift.addResource_shift (.inl hC) h.2 _ _).bind ?_
      intro r r' hr
      refine ⟨?_, rfl, hr⟩
      simp only [logLater, List.map_cons, List.map_nil]
      congr 2
      unfold followUpEvent newLater
      simp only
      split
      · simp only [NewEvent.mk.injEq, Option.map_some, and_true, add_right_comm a δ]
        omega
      · simp only [NewEvent.mk.injEq, Option.map_some, and_true, add_right_comm a δ]
        omega
    split
    · refine (Rel.refl (R := Eq) (fun _ => rfl) _).bind ?_
      rintro target _ rfl
      exact key [target]
    · exact key targets

theorem applicationTimeOf_later (t c : ℚ) (m : SkillModifier) (ts : Option TimingSpec) :
    Rel (Shift.Img (· + δ)) (applicationTimeOf t c m ts) (applicationTimeOf (t + δ) c m ts) := by
  unfold applicationTimeOf
  split
  · show _ = _
    ring
  · cases ts with
    | none => rfl
    | some ts =>
      show _ = _
      simp only
      ring

theorem processSkillLog_later (hC : ∀ kv ∈ C, kv.2.expiryFromLastGain = ⊤) (stats : Stats) (t : ℚ)
    (skill : Skill) (m : SkillModifier) {x y : Trackers} (h : TrRel δ C x y) (buffs : StatusEffects)
    (targets : List String) :
    Rel (LogRel δ (TrRel δ C)) (processSkillLog stats t skill m x buffs targets)
      (processSkillLog stats (t + δ) skill m y buffs targets) := by
  unfold processSkillLog
  refine (Rel.refl (R := Eq) (fun _ => rfl) _).bind ?_
  rintro ts _ rfl
  refine (Rel.refl (R := Eq) (fun _ => rfl) _).bind ?_
  rintro c _ rfl
  refine (applicationTimeOf_later t c m ts).bind ?_
  rintro a _ rfl
  simp only [add_right_comm t δ]
  rw [h.1]
  refine (Shift.se_add _ _ _ _ _).bind ?_
  rintro se _ rfl
  refine (Shift.addResource_shift (.inl hC) h.2 _ _).bind ?_
  intro r r' hr
  refine (Rel.refl (R := Eq) (fun _ => rfl) _).bind ?_
  rintro fs _ rfl
  have hf := foldLog_later (followUpLog_later hC (t + max 0 (c -
    GameConsts.DAMAGE_SNAPSHOT_TIME_BEFORE_CAST_FINISHES)) a targets) fs.zipIdx
    (s := { se := se, res := r }) (t := { se := Shift.se δ se, res := r' }) ⟨rfl, hr⟩
  rw [List.map_id] at hf
  refine hf.bind ?_
  rintro ⟨l, s⟩ ⟨_, s'⟩ ⟨h1, h2⟩
  obtain rfl : _ = logLater δ l := h1
  refine ⟨?_, h2⟩
  simp only [logLater_app]
  congr 1
  simp [logLater, newLater]

/-! ## Timed skills -/

def timedLater (k : ℤ) (p : TimedPress) : TimedPress := { p with t := p.t + k }

/-- The states of the loop over timed skills. -/
def StateRel (δ : ℚ) (C : Dict String JobResourceSettings) (x y : Trackers × ComboTracker) : Prop :=
  TrRel δ C x.1 y.1 ∧ y.2 = Shift.combo δ x.2

theorem timedStepLog_later (hC : ∀ kv ∈ C, kv.2.expiryFromLastGain = ⊤) (stats : Stats) (k : ℤ)
    (x y : Trackers × ComboTracker) (p : TimedPress) (h : StateRel k C x y) :
    Rel (LogRel k (StateRel k C)) (timedStepLog stats x p) (timedStepLog stats y (timedLater k p)) := by
  unfold timedStepLog timedLater
  simp only [Int.cast_add]
  rw [h.2]
  refine (resolve_later h.1 _ _ _ _).bind ?_
  rintro r r' ⟨h1, h2, h3, h4, h5⟩
  refine (Rel.refl (R := Eq) (fun _ => rfl) _).bind ?_
  rintro target _ rfl
  rw [h1, h3]
  refine (processSkillLog_later hC stats _ _ _ h4 _ _).bind ?_
  rintro ⟨l, s⟩ ⟨_, s'⟩ ⟨h6, h7⟩
  obtain rfl : _ = logLater _ l := h6
  refine ⟨?_, h7, h5⟩
  simp only [logLater_app]
  rfl

theorem timed_lt (k : ℤ) (a b : TimedPress) :
    TimedPress.pyLt (timedLater k a) (timedLater k b) = TimedPress.pyLt a b := by
  unfold TimedPress.pyLt timedLater
  simp only [ne_eq, add_left_inj, add_lt_add_iff_right]

theorem timedLoopLog_later (hC : ∀ kv ∈ C, kv.2.expiryFromLastGain = ⊤) (stats : Stats) (k : ℤ) (n : ℕ)
    {x y : Trackers × ComboTracker} (h : StateRel k C x y) (q : List TimedPress) :
    Rel (LogRel k (StateRel k C)) (timedLoopLog stats n x q)
      (timedLoopLog stats n y (q.map (timedLater k))) := by
  induction n generalizing x y q with
  | zero =>
    unfold timedLoopLog
    rw [List.length_map]
    split
    · rfl
    · exact ⟨rfl, h⟩
  | succ n ih =>
    unfold timedLoopLog
    rw [List.length_map]
    split
    · rw [Shift.heappop_map (lt := TimedPress.pyLt) (timed_lt k)]
      cases Heapq.heappop TimedPress.pyLt q with
      | error e => rfl
      | ok pq =>
        simp only [Except.map, Py.ok_bind]
        refine (timedStepLog_later hC stats k x y pq.1 h).bind ?_
        rintro ⟨l, s⟩ ⟨_, s'⟩ ⟨h1, h2⟩
        obtain rfl : _ = logLater _ l := h1
        refine (ih h2 pq.2).bind ?_
        rintro ⟨l', s⟩ ⟨_, s'⟩ ⟨h3, h4⟩
        obtain rfl : _ = logLater _ l' := h3
        exact ⟨(logLater_app _ _).symm, h4⟩
    · exact ⟨rfl, h⟩

/-! ## The sequence -/

structure SeqRel (δ : ℚ) (C : Dict String JobResourceSettings) (x y : SeqRest) : Prop where
  tr : TrRel δ C x.tr y.tr
  combo : y.combo = Shift.combo δ x.combo
  currT : y.currT = x.currT + δ
  nextGcd : y.nextGcd = x.nextGcd.map (· + δ)

theorem pressTime_later (g : Bool) (t : ℚ) (n : WithBot ℚ) :
    pressTime g (t + δ) (n.map (· + δ)) = pressTime g t n + δ := by
  unfold pressTime
  cases g with
  | false => rfl
  | true =>
    cases n with
    | bot => rfl
    | coe x => exact max_add_add_right t x δ

theorem seqStepLog_later (hC : ∀ kv ∈ C, kv.2.expiryFromLastGain = ⊤) (stats : Stats)
    (x y : SeqRest) (p : SeqPress) (h : SeqRel δ C x y) :
    Rel (LogRel δ (SeqRel δ C)) (seqStepLog stats x p) (seqStepLog stats y (id p)) := by
  unfold seqStepLog
  simp only [id]
  rw [h.combo, h.currT, h.nextGcd, pressTime_later]
  refine (resolve_later h.tr _ _ _ _).bind ?_
  rintro r r' ⟨h1, h2, h3, h4, h5⟩
  rw [h1, h2, h3]
  refine (Rel.refl (R := Eq) (fun _ => rfl) _).bind ?_
  rintro spec _ rfl
  refine (Rel.refl (R := Eq) (fun _ => rfl) _).bind ?_
  rintro target _ rfl
  refine (processSkillLog_later hC stats _ _ _ h4 _ _).bind ?_
  rintro ⟨l, s⟩ ⟨_, s'⟩ ⟨h6, h7⟩
  obtain rfl : _ = logLater _ l := h6
  refine (Rel.refl (R := Eq) (fun _ => rfl) _).bind ?_
  rintro ts _ rfl
  simp only
  split
  · refine (Rel.refl (R := Eq) (fun _ => rfl) _).bind ?_
    rintro recast _ rfl
    refine (Rel.refl (R := Eq) (fun _ => rfl) _).bind ?_
    rintro cast _ rfl
    refine ⟨?_, h7, h5, ?_, ?_⟩
    · simp only [logLater_app]
      rfl
    · simp only [add_right_comm _ δ]
    · simp only [add_right_comm _ δ]
      rfl
  · refine ⟨?_, h7, h5, ?_, rfl⟩
    · simp only [logLater_app]
      rfl
    · simp only [add_right_comm _ δ]

/-! ## Both queues -/

/-- The second builder is the first one, with everything asked for `k` later. -/
structure BuilderLater (k : ℤ) (a b : RotationBuilder) : Prop where
  stats : b.stats = a.stats
  lib : b.lib = a.lib
  priority : b.priority = a.priority
  target : b.defaultTarget = a.defaultTarget
  start : (a.qSequence = [] ∧ b.fightStart = a.fightStart) ∨
    ∃ t, a.fightStart = some t ∧ b.fightStart = some (t + k)
  sequence : b.qSequence = a.qSequence
  timed : b.qTimed = a.qTimed.map (timedLater k)

theorem BuilderLater.trackers {k : ℤ} {a b : RotationBuilder} (h : BuilderLater k a b) :
    b.initTrackers = a.initTrackers := by
  unfold initTrackers
  rw [h.stats, h.lib, h.priority]

theorem initTrackers_later {a : RotationBuilder} {tc : Trackers × ComboTracker}
    (hl : Lasting a.lib a.stats.jobClass) (h : a.initTrackers = .ok tc) :
    ∃ C, (∀ kv ∈ C, kv.2.expiryFromLastGain = ⊤) ∧ StateRel δ C tc tc := by
  unfold initTrackers at h
  obtain ⟨C, h1, h⟩ := Py.bind_eq_ok.1 h
  obtain ⟨br, h2, h⟩ := Py.bind_eq_ok.1 h
  cases h
  refine ⟨C, hl C h1, ⟨rfl, ?_⟩, rfl⟩
  refine ⟨?_, .inl (hl C h1), rfl⟩
  unfold JobResourceTracker.init Shift.res Shift.vals
  simp

theorem seqLog_later {k : ℤ} {a b : RotationBuilder} (h : BuilderLater k a b)
    (hl : Lasting a.lib a.stats.jobClass) :
    Rel (Shift.Img (logLater k)) a.seqLog b.seqLog := by
  unfold seqLog
  rw [h.trackers, h.stats, h.sequence]
  cases ht : a.initTrackers with
  | error e => rfl
  | ok tc =>
    simp only [Py.ok_bind]
    rcases h.start with ⟨h1, h2⟩ | ⟨t, h1, h2⟩
    · rw [h1]
      rfl
    · obtain ⟨C, hC, h3, h4⟩ := initTrackers_later (δ := k) hl ht
      have hf := foldLog_later (seqStepLog_later hC a.stats) a.qSequence
        (s := { tr := tc.1, combo := tc.2, currT := a.fightStart.getD 0, nextGcd := ⊥ })
        (t := { tr := tc.1, combo := tc.2, currT := b.fightStart.getD 0, nextGcd := ⊥ })
        ⟨h3, h4, by rw [h1, h2]; rfl, rfl⟩
      rw [List.map_id] at hf
      refine hf.bind ?_
      rintro ⟨l, s⟩ ⟨_, s'⟩ ⟨h6, h7⟩
      exact h6

theorem timedLog_later {k : ℤ} {a b : RotationBuilder} (h : BuilderLater k a b)
    (hl : Lasting a.lib a.stats.jobClass) :
    Rel (Shift.Img (logLater k)) a.timedLog b.timedLog := by
  unfold timedLog
  rw [h.trackers, h.stats, h.timed]
  cases ht : a.initTrackers with
  | error e => rfl
  | ok tc =>
    simp only [Py.ok_bind]
    obtain ⟨C, hC, h3⟩ := initTrackers_later (δ := k) hl ht
    have hs : sortBy (fun p : TimedPress => p.t) (a.qTimed.map (timedLater k)) =
        (sortBy (fun p : TimedPress => p.t) a.qTimed).map (timedLater k) := by
      rw [sortBy_map]
      congr 1
      refine sortBy_congr _ _ fun p _ q _ => ?_
      exact add_le_add_iff_right k
    rw [hs, List.length_map]
    refine (timedLoopLog_later hC a.stats k _ h3 _).bind ?_
    rintro ⟨l, s⟩ ⟨_, s'⟩ ⟨h6, h7⟩
    exact h6

theorem queueLog_later {k : ℤ} {a b : RotationBuilder} (h : BuilderLater k a b)
    (hl : Lasting a.lib a.stats.jobClass) :
    Rel (Shift.Img (logLater k)) a.queueLog b.queueLog := by
  unfold queueLog
  refine (seqLog_later h hl).bind ?_
  rintro l _ rfl
  refine (timedLog_later h hl).bind ?_
  rintro l' _ rfl
  exact (logLater_app _ _).symm

/-! ## Public calls -/

theorem pyInt_later {t : ℚ} (k : ℤ) (h : ∃ n : ℤ, 1000 * t = n) :
    pyInt (1000 * (t + k / 1000)) = pyInt (1000 * t) + k := by
  obtain ⟨n, h⟩ := h
  have h' : 1000 * (t + k / 1000) = ((n + k : ℤ) : ℚ) := by
    push_cast
    rw [← h]
    ring
  rw [h', h]
  unfold pyInt
  split <;> split <;> simp

/-- As `BuilderLater`, with any fight start. -/
structure QueuesLater (k : ℤ) (a b : RotationBuilder) : Prop where
  stats : b.stats = a.stats
  lib : b.lib = a.lib
  priority : b.priority = a.priority
  target : b.defaultTarget = a.defaultTarget
  sequence : b.qSequence = a.qSequence
  timed : b.qTimed = a.qTimed.map (timedLater k)

theorem op_later {k : ℤ} {op : BuilderOp} {a b a' b' : RotationBuilder} (h : QueuesLater k a b)
    (hm : op.Milli) (ha : op.run a = .ok a') (hb : (op.later k).run b = .ok b') :
    QueuesLater k a' b' ∧ a'.fightStart = a.fightStart ∧ b'.fightStart = b.fightStart ∧
      (op.isNext = false → a'.qSequence = a.qSequence) ∧ a'.lib = a.lib ∧ a'.stats = a.stats := by
  obtain ⟨e1, e2, e3, e4, e5, e6⟩ := h
  cases op with
  | addNext name m job n targets =>
    obtain ⟨s1, h1, rfl⟩ := addNext_ok ha
    obtain ⟨s2, h2, rfl⟩ := addNext_ok hb
    rw [e1, e2, h1] at h2
    cases h2
    refine ⟨⟨e1, e2, e3, e4, ?_, e6⟩, rfl, rfl, fun h => Bool.noConfusion h, rfl, rfl⟩
    simp only [e5, e1, e4, getDefaultSkillModifier]
  | add t name m job targets =>
    obtain ⟨s1, h1, rfl⟩ := add_ok ha
    obtain ⟨s2, h2, rfl⟩ := add_ok hb
    rw [e1, e2, h1] at h2
    cases h2
    refine ⟨⟨e1, e2, e3, e4, e5, ?_⟩, rfl, rfl, fun _ => rfl, rfl, rfl⟩
    simp only [e6, e1, e4, getDefaultSkillModifier, List.map_append, List.map_cons, List.map_nil,
      timedLater, pyInt_later k hm]
  | setTrailing x =>
    cases ha
    cases hb
    exact ⟨⟨e1, e2, e3, e4, e5, e6⟩, rfl, rfl, fun _ => rfl, rfl, rfl⟩
  | setAutos x =>
    cases ha
    cases hb
    exact ⟨⟨e1, e2, e3, e4, e5, e6⟩, rfl, rfl, fun _ => rfl, rfl, rfl⟩
  | timing fuel =>
    obtain ⟨a1, a2, a3, a4, a5, a6, a7, a8, a9, a10, a11, a12⟩ := timing_fields ha
    obtain ⟨b1, b2, b3, b4, b5, b6, b7, b8, b9, b10, b11, b12⟩ := timing_fields hb
    exact ⟨⟨by rw [a1, b1, e1], by rw [a2, b2, e2], by rw [a12, b12, e3], by rw [a7, b7, e4],
      by rw [a5, b5, e5], by rw [a4, b4, e6]⟩, a11, b11, fun _ => a5, a2, a1⟩

theorem ops_later {k : ℤ} {ops : List BuilderOp} {a b a' b' : RotationBuilder} (h : QueuesLater k a b)
    (hm : ∀ op ∈ ops, op.Milli) (ha : ops.foldlM BuilderOp.run a = .ok a')
    (hb : (ops.map (BuilderOp.later k)).foldlM BuilderOp.run b = .ok b') :
    QueuesLater k a' b' ∧ a'.fightStart = a.fightStart ∧ b'.fightStart = b.fightStart ∧
      ((∀ op ∈ ops, op.isNext = false) → a'.qSequence = a.qSequence) ∧ a'.lib = a.lib ∧
      a'.stats = a.stats := by
  induction ops generalizing a b with
  | nil =>
    cases ha
    cases hb
    exact ⟨h, rfl, rfl, fun _ => rfl, rfl, rfl⟩
  | cons op ops ih =>
    rw [List.map_cons, Py.foldlM_cons] at hb
    rw [Py.foldlM_cons] at ha
    obtain ⟨a1, h1, ha⟩ := Py.bind_eq_ok.1 ha
    obtain ⟨b1, h2, hb⟩ := Py.bind_eq_ok.1 hb
    obtain ⟨g1, g2, g3, g4, g5, g6⟩ := op_later h (hm op (by simp)) h1 h2
    obtain ⟨k1, k2, k3, k4, k5, k6⟩ := ih g1 (fun op hop => hm op (by simp [hop])) ha hb
    exact ⟨k1, k2.trans g2, k3.trans g3, fun hn => (k4 fun op hop => hn op (by simp [hop])).trans
      (g4 (hn op (by simp))), k5.trans g5, k6.trans g6⟩

/-- A builder and the builder of the same rotation at another time. -/
theorem built_later {k : ℤ} {stats : Stats} {lib : SkillLibrary} {snapDots snapDots' : Option ℚ}
    {autos trailing autos' trailing' : Bool} {start : Option ℚ} {downtime downtime' : RawDowntime}
    {target : String} {rb₀ rb₀' rb rb' : RotationBuilder} {ops : List BuilderOp}
    (h₀ : RotationBuilder.init stats lib snapDots autos trailing start downtime target = .ok rb₀)
    (h₀' : RotationBuilder.init stats lib snapDots' autos' trailing' (start.map (· + (k : ℚ)))
      downtime' target = .ok rb₀')
    (hm : ∀ op ∈ ops, op.Milli) (hs : start ≠ none ∨ ∀ op ∈ ops, op.isNext = false)
    (h : ops.foldlM BuilderOp.run rb₀ = .ok rb)
    (h' : (ops.map (BuilderOp.later k)).foldlM BuilderOp.run rb₀' = .ok rb') :
    BuilderLater k rb rb' ∧ rb.lib = lib ∧ rb.stats = stats ∧ rb.fightStart = start ∧
      rb'.fightStart = start.map (· + (k : ℚ)) := by
  unfold RotationBuilder.init at h₀ h₀'
  obtain ⟨p, hp, h₀⟩ := Py.bind_eq_ok.1 h₀
  obtain ⟨p', hp', h₀'⟩ := Py.bind_eq_ok.1 h₀'
  rw [hp] at hp'
  cases hp'
  cases h₀
  cases h₀'
  obtain ⟨g1, g2, g3, g4, g5, g6⟩ := ops_later (k := k) (by constructor <;> rfl) hm h h'
  obtain ⟨e1, e2, e3, e4, e5, e6⟩ := g1
  refine ⟨⟨e1, e2, e3, e4, ?_, e5, e6⟩, g5, g6, g2, g3⟩
  rcases start with _ | t
  · rcases hs with hs | hs
    · exact absurd rfl hs
    · exact .inl ⟨g4 hs, by rw [g2, g3]; rfl⟩
  · exact .inr ⟨t, g2, g3⟩

/-! ## Events -/

theorem prio_later {t : ℚ} {k : ℤ} (h : Micro t ∨ 0 ≤ t ∧ 0 ≤ t + k) :
    Utils.transformTimeToPrio (t + k) = Utils.transformTimeToPrio t + 1000 * k := by
  have hk : 1000 * (t + k) = 1000 * t + ((1000 * k : ℤ) : ℚ) := by
    push_cast
    ring
  unfold Utils.transformTimeToPrio pyInt
  rw [hk]
  rcases h with ⟨n, hn⟩ | ⟨h1, h2⟩
  · rw [hn, ← Int.cast_add]
    generalize 1000 * k = j
    split <;> split <;> simp
  · rw [if_pos (by linarith), if_pos (by linarith), Int.floor_add_intCast]

theorem moved_of_becomes {k : ℤ} {a : NewEvent} {e e' : Event} (h : NewEvent.Becomes a e)
    (h' : NewEvent.Becomes (newLater k a) e') : MovedLater k e e' ∧ RankedLater k e e' := by
  obtain ⟨a1, a2, a3, a4, a5, _, _, _, a9⟩ := h
  obtain ⟨b1, b2, b3, b4, b5, _, _, _, b9⟩ := h'
  have hc : (newLater k a).secondary = some (newLater k a).primary ↔ a.secondary = some a.primary := by
    unfold newLater
    cases a.secondary with
    | none => simp
    | some s => simp
  have hp : RankedLater k e e' := by
    unfold RankedLater
    rw [a1, a2, b1, b2]
    intro h
    have := prio_later (k := k) (t := a.primary) h
    simp only [newLater]
    omega
  by_cases hs : a.secondary = some a.primary
  · rw [if_pos hs] at a9
    rw [if_pos (hc.2 hs)] at b9
    exact ⟨⟨by rw [a2, b2]; rfl, by rw [a9.1, b9.1]; rfl, by rw [a3, b3]; rfl, by rw [a4, b4]; rfl,
      by rw [a9.2.1, b9.2.1], by rw [a9.2.2, b9.2.2], by rw [a5, b5]; rfl⟩, hp⟩
  · rw [if_neg hs] at a9
    rw [if_neg (fun h => hs (hc.1 h))] at b9
    exact ⟨⟨by rw [a2, b2]; rfl, by rw [a9.1, b9.1]; rfl, by rw [a3, b3]; rfl, by rw [a4, b4]; rfl,
      by rw [a9.2.1, b9.2.1]; rfl, by rw [a9.2.2, b9.2.2]; rfl, by rw [a5, b5]; rfl⟩, hp⟩

theorem forall₂_moved {k : ℤ} {as : List NewEvent} {es es' : List Event}
    (h : List.Forall₂ NewEvent.Becomes as es)
    (h' : List.Forall₂ (fun a e => NewEvent.Becomes (newLater k a) e) as es') :
    List.Forall₂ (fun e e' => MovedLater k e e' ∧ RankedLater k e e') es es' := by
  induction h generalizing es' with
  | nil => cases h'; exact .nil
  | cons h _ ih =>
    cases h' with
    | cons k ks => exact .cons (moved_of_becomes h k) (ih ks)

theorem pushes_later (k : ℤ) (as : List NewEvent) :
    Changed (fun e e' => MovedLater k e e' ∧ RankedLater k e e') (as.foldl Events.push {}).q
      ((as.map (newLater k)).foldl Events.push {}).q := by
  obtain ⟨_, es, h1, h2⟩ := pushes_empty as
  obtain ⟨_, es', h3, h4⟩ := pushes_empty (as.map (newLater k))
  have h6 := eventsOf_forall₂ h3
  rw [List.forall₂_map_left_iff] at h6
  exact changed_perm h2.symm h4.symm ⟨es', forall₂_moved (eventsOf_forall₂ h1) h6, .refl _⟩

end RotationBuilder

end Ama
