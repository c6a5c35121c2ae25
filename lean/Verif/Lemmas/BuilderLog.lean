import Verif.Model.RotationBuilder
import Verif.Lemmas.Events

/-!
# The rotation builder only appends while it processes skills

Processing the queues never reads the collected events, dots, presses or timestamps.  Here each
processing function is written as a function producing a log of what is appended, and shown to agree
with the model.
-/

namespace Ama

/-- `Events.add` as a total function. -/
def Events.push (evs : Events) (a : NewEvent) : Events :=
  match evs.add a with
  | .ok e => e
  | .error _ => evs

theorem Events.add_eq_push (evs : Events) (a : NewEvent) : evs.add a = .ok (evs.push a) := by
  obtain ⟨q, hq⟩ := Heapq.heappush_total (lt := Event.pyLt) (h := evs.q)
    (x := Events.mkEvent a (a.eventId.getD evs.eventId)) (event_ltTotal _)
  have : ∃ e, evs.add a = .ok e := by
    unfold Events.add
    simp only [hq, Py.ok_bind]
    exact ⟨_, rfl⟩
  obtain ⟨e, he⟩ := this
  unfold Events.push
  rw [he]

/-- What processing appends to a builder. -/
structure Log where
  adds : List NewEvent := []
  dots : List (String × FollowUp × DotApp) := []
  presses : List Press := []
  stamps : List (ℚ × String) := []

namespace Log

/-- Append two logs. -/
def app (l l' : Log) : Log :=
  { adds := l.adds ++ l'.adds, dots := l.dots ++ l'.dots, presses := l.presses ++ l'.presses,
    stamps := l.stamps ++ l'.stamps }

@[simp] theorem app_adds (l l' : Log) : (l.app l').adds = l.adds ++ l'.adds := rfl
@[simp] theorem app_dots (l l' : Log) : (l.app l').dots = l.dots ++ l'.dots := rfl
@[simp] theorem app_presses (l l' : Log) : (l.app l').presses = l.presses ++ l'.presses := rfl
@[simp] theorem app_stamps (l l' : Log) : (l.app l').stamps = l.stamps ++ l'.stamps := rfl

theorem app_assoc (a b c : Log) : (a.app b).app c = a.app (b.app c) := by
  simp [app]

@[simp] theorem nil_app (l : Log) : ({} : Log).app l = l := rfl

@[simp] theorem app_nil (l : Log) : l.app {} = l := by
  simp [app]

end Log

/-- Add a list of dot applications. -/
def addDots (d : Dots) (l : List (String × FollowUp × DotApp)) : Dots :=
  l.foldl (fun d x => RotationBuilder.addDotApp d x.2.1 x.2.2 x.1) d

theorem addDots_append (d : Dots) (l l' : List (String × FollowUp × DotApp)) :
    addDots d (l ++ l') = addDots (addDots d l) l' := by
  simp [addDots]

namespace RotationBuilder

/-- Append a log to a builder. -/
def apply (rb : RotationBuilder) (l : Log) : RotationBuilder :=
  { rb with
    events := l.adds.foldl Events.push rb.events
    qDot := addDots rb.qDot l.dots
    presses := rb.presses ++ l.presses
    timestamps := rb.timestamps ++ l.stamps }

@[simp] theorem apply_stats (rb : RotationBuilder) (l : Log) : (rb.apply l).stats = rb.stats := rfl

@[simp] theorem apply_nil (rb : RotationBuilder) : rb.apply {} = rb := by
  simp [apply, addDots]

theorem apply_app (rb : RotationBuilder) (l l' : Log) : rb.apply (l.app l') = (rb.apply l).apply l' := by
  simp [apply, addDots_append]

theorem addEvent_eq (rb : RotationBuilder) (a : NewEvent) :
    rb.addEvent a = .ok (rb.apply { adds := [a] }) := by
  unfold addEvent
  rw [Events.add_eq_push]
  simp [apply, addDots]

/-- Run logging steps one after the other. -/
def foldLog {S A : Type} (step : S → A → Py (Log × S)) : S → List A → Py (Log × S)
  | s, [] => .ok ({}, s)
  | s, a :: as => do
    let x ← step s a
    let y ← foldLog step x.2 as
    return (x.1.app y.1, y.2)

/-- A fold whose steps append logs appends the logs of the steps. -/
theorem foldlM_eq_foldLog {S A σ : Type} (mk : RotationBuilder → S → σ) (f : σ → A → Py σ)
    (step : S → A → Py (Log × S)) (C : RotationBuilder → Prop) (hC : ∀ rb l, C rb → C (rb.apply l))
    (h : ∀ rb s a, C rb →
      f (mk rb s) a = (step s a >>= fun x => .ok (mk (rb.apply x.1) x.2)))
    (rb : RotationBuilder) (s : S) (as : List A) (hst : C rb) :
    as.foldlM f (mk rb s) = (foldLog step s as >>= fun x => .ok (mk (rb.apply x.1) x.2)) := by
  induction as generalizing rb s with
  | nil => simp [foldLog]
  | cons a as ih =>
    rw [Py.foldlM_cons, h rb s a hst, foldLog]
    cases step s a with
    | error e => rfl
    | ok x =>
      simp only [Py.ok_bind]
      rw [ih _ _ (hC _ _ hst)]
      cases foldLog step x.2 as with
      | error e => rfl
      | ok y => simp [apply_app]

/-! ## Logging versions of the processing functions -/

/-- Log of `followUpStep`. -/
def followUpLog (parentSnapshot parentApplication : ℚ) (targets : List String) (tr : Trackers)
    (fi : FollowUp × ℕ) : Py (Log × Trackers) :=
  let prioMod : ℤ := fi.2 + 1
  if fi.1.dotDuration.isSome then
    .ok ({ dots := targets.map (fun target => (target, fi.1,
      { snapshot := parentSnapshot, application := parentApplication, prioMod := prioMod })) }, tr)
  else do
    let targets ← if fi.1.primaryTargetOnly then do pure [← pyIdx targets 0] else pure targets
    let applicationTime := parentApplication + fi.1.delayAfterParentApplication
    let se ← tr.se.add applicationTime fi.1.skill {} targets
    let res ← tr.res.addResource applicationTime fi.1.skill {}
    return ({ adds := [followUpEvent fi.1 prioMod parentSnapshot parentApplication targets] },
      { se := se, res := res })

theorem followUpStep_eq (parentSnapshot parentApplication : ℚ) (targets : List String)
    (rb : RotationBuilder) (tr : Trackers) (fi : FollowUp × ℕ) :
    followUpStep parentSnapshot parentApplication targets (rb, tr) fi =
      (followUpLog parentSnapshot parentApplication targets tr fi >>=
        fun x => .ok (rb.apply x.1, x.2)) := by
  unfold followUpStep followUpLog
  by_cases hd : fi.1.dotDuration.isSome = true
  · simp only [hd, if_true, Py.ok_bind, Except.ok.injEq, Prod.mk.injEq, and_true]
    simp only [processDotFollowUp, apply, addDots, List.foldl_map, List.foldl_nil, List.append_nil]
  · simp only [hd, if_false, Bool.false_eq_true]
    unfold processNonDotFollowUp
    simp only [addEvent_eq, Py.ok_bind]
    have hgen : ∀ ts : List String,
        (tr.se.add (parentApplication + ↑fi.1.delayAfterParentApplication) fi.1.skill {} ts >>= fun se =>
          tr.res.addResource (parentApplication + ↑fi.1.delayAfterParentApplication) fi.1.skill {} >>=
          fun res => (pure (rb.apply { adds := [followUpEvent fi.1 (↑fi.2 + 1) parentSnapshot
            parentApplication ts] }, ({ se := se, res := res } : Trackers)) : Py _)) =
        ((tr.se.add (parentApplication + ↑fi.1.delayAfterParentApplication) fi.1.skill {} ts >>= fun se =>
          tr.res.addResource (parentApplication + ↑fi.1.delayAfterParentApplication) fi.1.skill {} >>=
          fun res => (pure (({ adds := [followUpEvent fi.1 (↑fi.2 + 1) parentSnapshot
            parentApplication ts] } : Log), ({ se := se, res := res } : Trackers)) : Py _)) >>=
          fun x => .ok (rb.apply x.1, x.2)) := by
      intro ts
      cases tr.se.add (parentApplication + ↑fi.1.delayAfterParentApplication) fi.1.skill {} ts with
      | error e => rfl
      | ok se =>
        simp only [Py.ok_bind]
        cases tr.res.addResource (parentApplication + ↑fi.1.delayAfterParentApplication) fi.1.skill {} with
        | error e => rfl
        | ok res => rfl
    by_cases hp : fi.1.primaryTargetOnly = true
    · simp only [hp, if_true]
      cases pyIdx targets 0 with
      | error e => rfl
      | ok target => exact hgen [target]
    · simp only [hp, if_false, Bool.false_eq_true]
      exact hgen targets

/-- Log of `processSkill`. -/
def processSkillLog (stats : Stats) (t : ℚ) (skill : Skill) (m : SkillModifier) (tr : Trackers)
    (buffs : StatusEffects) (targets : List String) : Py (Log × Trackers) := do
  let timingSpec ← skill.getTimingSpec m
  let castTime ← getCastTime stats timingSpec m buffs
  let snapshotTime :=
    t + max 0 (castTime - GameConsts.DAMAGE_SNAPSHOT_TIME_BEFORE_CAST_FINISHES)
  let applicationTime ← applicationTimeOf t castTime m timingSpec
  let se ← tr.se.add applicationTime skill.toSkillCore m targets
  let res ← tr.res.addResource snapshotTime skill.toSkillCore m
  let followUps ← skill.getFollowUpSkills m
  let x ← foldLog (followUpLog snapshotTime applicationTime targets) { se := se, res := res }
    followUps.zipIdx
  return (({ adds := [{
    priority := Utils.transformTimeToPrio snapshotTime
    primary := snapshotTime
    secondary := some applicationTime
    skill := skill
    modifier := m
    snapshotBuffs := .flag true
    snapshotDebuffs := .flag true
    targets := targets }] } : Log).app x.1, x.2)

theorem processSkill_eq (rb : RotationBuilder) (t : ℚ) (skill : Skill) (m : SkillModifier)
    (tr : Trackers) (buffs : StatusEffects) (targets : List String) :
    rb.processSkill t skill m tr buffs targets =
      (processSkillLog rb.stats t skill m tr buffs targets >>= fun x => .ok (rb.apply x.1, x.2)) := by
  unfold processSkill processSkillLog
  cases skill.getTimingSpec m with
  | error e => rfl
  | ok timingSpec =>
    simp only [Py.ok_bind]
    cases getCastTime rb.stats timingSpec m buffs with
    | error e => rfl
    | ok castTime =>
      simp only [Py.ok_bind]
      cases applicationTimeOf t castTime m timingSpec with
      | error e => rfl
      | ok applicationTime =>
        simp only [Py.ok_bind, addEvent_eq]
        cases tr.se.add applicationTime skill.toSkillCore m targets with
        | error e => rfl
        | ok se =>
          simp only [Py.ok_bind]
          cases tr.res.addResource (t + max 0 (castTime -
              GameConsts.DAMAGE_SNAPSHOT_TIME_BEFORE_CAST_FINISHES)) skill.toSkillCore m with
          | error e => rfl
          | ok res =>
            simp only [Py.ok_bind]
            cases skill.getFollowUpSkills m with
            | error e => rfl
            | ok fs =>
              simp only [Py.ok_bind, processFollowUps]
              rw [foldlM_eq_foldLog (fun rb tr => (rb, tr)) _ _ (fun _ => True) (fun _ _ h => h)
                (fun rb s a _ => followUpStep_eq _ _ _ rb s a) _ _ _ trivial]
              cases foldLog _ _ _ with
              | error e => rfl
              | ok x =>
                simp only [Py.ok_bind, Py.pure_eq, apply_app]

/-- Log of `timedStep`. -/
def timedStepLog (stats : Stats) (s : Trackers × ComboTracker) (p : TimedPress) :
    Py (Log × (Trackers × ComboTracker)) := do
  let r ← resolve p.t p.skill p.modifier s.1 s.2
  let target ← pyIdx p.targets 0
  let x ← processSkillLog stats p.t p.skill r.modifier r.tr r.buffs p.targets
  return (({ presses := [{ t := p.t, name := p.skill.name,
                           jobClass := if p.jobClass ≠ stats.jobClass then p.jobClass else "",
                           conds := p.modifier.withCondition }],
             stamps := [((p.t : ℚ), target)] } : Log).app x.1, (x.2, r.combo))

theorem timedStep_eq (rb : RotationBuilder) (s : Trackers × ComboTracker) (p : TimedPress) :
    timedStep { rb := rb, tr := s.1, combo := s.2 } p =
      (timedStepLog rb.stats s p >>=
        fun x => .ok { rb := rb.apply x.1, tr := x.2.1, combo := x.2.2 }) := by
  unfold timedStep timedStepLog
  cases resolve p.t p.skill p.modifier s.1 s.2 with
  | error e => rfl
  | ok r =>
    simp only [Py.ok_bind, recordTarget, recordPress]
    cases pyIdx p.targets 0 with
    | error e => rfl
    | ok target =>
      simp only [Py.ok_bind, Py.pure_eq, processSkill_eq]
      cases processSkillLog rb.stats p.t p.skill r.modifier r.tr r.buffs p.targets with
      | error e => rfl
      | ok x =>
        simp only [Py.ok_bind, Except.ok.injEq, LoopState.mk.injEq, and_true]
        rw [apply_app]
        simp [apply, addDots, mkPress]

/-- Log of `timedLoop`. -/
def timedLoopLog (stats : Stats) : ℕ → Trackers × ComboTracker → List TimedPress →
    Py (Log × (Trackers × ComboTracker))
  | 0, s, q => if q.length > 0 then .error .outOfFuel else .ok ({}, s)
  | n + 1, s, q =>
    if q.length > 0 then do
      let pq ← Heapq.heappop TimedPress.pyLt q
      let x ← timedStepLog stats s pq.1
      let y ← timedLoopLog stats n x.2 pq.2
      return (x.1.app y.1, y.2)
    else .ok ({}, s)

theorem timedLoop_eq (n : ℕ) (rb : RotationBuilder) (s : Trackers × ComboTracker)
    (q : List TimedPress) :
    timedLoop n { rb := rb, tr := s.1, combo := s.2 } q =
      (timedLoopLog rb.stats n s q >>=
        fun x => .ok { rb := rb.apply x.1, tr := x.2.1, combo := x.2.2 }) := by
  induction n generalizing rb s q with
  | zero =>
    unfold timedLoop timedLoopLog
    by_cases h : q.length > 0
    · simp only [h, if_true]
      rfl
    · simp only [h, if_false]
      simp
  | succ n ih =>
    unfold timedLoop timedLoopLog
    by_cases h : q.length > 0
    · simp only [h, if_true]
      cases Heapq.heappop TimedPress.pyLt q with
      | error e => rfl
      | ok pq =>
        simp only [Py.ok_bind]
        rw [timedStep_eq]
        cases timedStepLog rb.stats s pq.1 with
        | error e => rfl
        | ok x =>
          simp only [Py.ok_bind]
          rw [ih (rb.apply x.1) x.2 pq.2]
          simp only [apply_stats]
          cases timedLoopLog rb.stats n x.2 pq.2 with
          | error e => rfl
          | ok y => simp [apply_app]
    · simp only [h, if_false]
      simp

/-- The state of the loop over the sequence without the builder. -/
structure SeqRest where
  tr : Trackers
  combo : ComboTracker
  currT : ℚ
  nextGcd : WithBot ℚ

/-- Log of `seqStep`. -/
def seqStepLog (stats : Stats) (st : SeqRest) (p : SeqPress) : Py (Log × SeqRest) := do
  let isGCD := p.skill.isGCD.getD false
  let t := pressTime isGCD st.currT st.nextGcd
  let r ← resolve t p.skill p.modifier st.tr st.combo
  let timingSpec ← p.skill.getTimingSpec r.modifier
  let target ← pyIdx p.targets 0
  let x ← processSkillLog stats t p.skill r.modifier r.tr r.buffs p.targets
  let ts ← needTiming timingSpec
  let log := ({ presses := [{ t := t, name := p.skill.name,
                              jobClass := if p.jobClass ≠ stats.jobClass then p.jobClass else "",
                              conds := p.modifier.withCondition }],
                stamps := [(t, target)] } : Log).app x.1
  if isGCD then
    let recast ← recastTime stats ts r.buffs r.debuffs
    let castTime ← getCastTime stats (some ts) r.modifier r.buffs
    return (log, { tr := x.2, combo := r.combo, currT := t + (castTime + ts.animationLock),
                   nextGcd := ((t + recast : ℚ) : WithBot ℚ) })
  else
    return (log, { tr := x.2, combo := r.combo, currT := t + ts.animationLock,
                   nextGcd := st.nextGcd })

/-- The full state of the loop over the sequence. -/
def mkSeq (rb : RotationBuilder) (st : SeqRest) : SeqState :=
  { s := { rb := rb, tr := st.tr, combo := st.combo }, currT := st.currT, nextGcd := st.nextGcd }

theorem seqStep_eq (rb : RotationBuilder) (st : SeqRest) (p : SeqPress) :
    seqStep (mkSeq rb st) p =
      (seqStepLog rb.stats st p >>= fun x => .ok (mkSeq (rb.apply x.1) x.2)) := by
  unfold seqStep seqStepLog mkSeq
  simp only
  cases resolve (pressTime (p.skill.isGCD.getD false) st.currT st.nextGcd) p.skill p.modifier st.tr
    st.combo with
  | error e => rfl
  | ok r =>
    simp only [Py.ok_bind]
    cases p.skill.getTimingSpec r.modifier with
    | error e => rfl
    | ok timingSpec =>
      simp only [Py.ok_bind, recordTarget, recordPress]
      cases pyIdx p.targets 0 with
      | error e => rfl
      | ok target =>
        simp only [Py.ok_bind, Py.pure_eq, processSkill_eq]
        cases processSkillLog rb.stats (pressTime (p.skill.isGCD.getD false) st.currT st.nextGcd)
          p.skill r.modifier r.tr r.buffs p.targets with
        | error e => rfl
        | ok x =>
          simp only [Py.ok_bind]
          cases needTiming timingSpec with
          | error e => rfl
          | ok ts =>
            simp only [Py.ok_bind]
            have hrb : ∀ l : Log, ({ rb with
                presses := rb.presses ++ [rb.mkPress (pressTime (p.skill.isGCD.getD false) st.currT
                  st.nextGcd) p.skill p.modifier p.jobClass]
                timestamps := rb.timestamps ++ [(pressTime (p.skill.isGCD.getD false) st.currT
                  st.nextGcd, target)] } : RotationBuilder).apply l =
                rb.apply (({ presses := [{ t := pressTime (p.skill.isGCD.getD false) st.currT
                                              st.nextGcd,
                                           name := p.skill.name,
                                           jobClass := if p.jobClass ≠ rb.stats.jobClass
                                             then p.jobClass else "",
                                           conds := p.modifier.withCondition }],
                             stamps := [(pressTime (p.skill.isGCD.getD false) st.currT st.nextGcd,
                               target)] } : Log).app l) := by
              intro l
              rw [apply_app]
              simp [apply, addDots, mkPress]
            by_cases hg : p.skill.isGCD.getD false = true
            · simp only [hg, if_true] at hrb ⊢
              rw [hrb]
              simp only [apply_stats]
              cases recastTime rb.stats ts r.buffs r.debuffs with
              | error e => rfl
              | ok recast =>
                simp only [Py.ok_bind]
                cases getCastTime rb.stats (some ts) r.modifier r.buffs with
                | error e => rfl
                | ok castTime => rfl
            · simp only [hg] at hrb ⊢
              rw [hrb]
              rfl

/-- What processing the queues appends. -/
def seqLog (rb : RotationBuilder) : Py Log := do
  let tc ← rb.initTrackers
  let x ← foldLog (seqStepLog rb.stats)
    { tr := tc.1, combo := tc.2, currT := rb.fightStart.getD 0, nextGcd := ⊥ } rb.qSequence
  return x.1

theorem processQSequence_eq (rb : RotationBuilder) :
    rb.processQSequence = (rb.seqLog >>= fun l => .ok (rb.apply l)) := by
  unfold processQSequence seqLog
  cases rb.initTrackers with
  | error e => rfl
  | ok tc =>
    simp only [Py.ok_bind]
    have h := foldlM_eq_foldLog mkSeq seqStep (seqStepLog rb.stats) (fun r => r.stats = rb.stats)
      (fun _ _ h => h) (fun r s a hr => by rw [seqStep_eq, hr]) rb
      { tr := tc.1, combo := tc.2, currT := rb.fightStart.getD 0, nextGcd := ⊥ } rb.qSequence rfl
    have hm : mkSeq rb { tr := tc.1, combo := tc.2, currT := rb.fightStart.getD 0, nextGcd := ⊥ } =
      { s := { rb := rb, tr := tc.1, combo := tc.2 }, currT := rb.fightStart.getD 0, nextGcd := ⊥ } :=
      rfl
    rw [hm] at h
    rw [h]
    cases foldLog _ _ _ with
    | error e => rfl
    | ok x => rfl

/-- What processing the timed queue appends. -/
def timedLog (rb : RotationBuilder) : Py Log := do
  let tc ← rb.initTrackers
  let q := sortBy (·.t) rb.qTimed
  let x ← timedLoopLog rb.stats q.length tc q
  return x.1

theorem processQTimed_eq (rb : RotationBuilder) :
    rb.processQTimed = (rb.timedLog >>= fun l => .ok (rb.apply l)) := by
  unfold processQTimed timedLog
  cases rb.initTrackers with
  | error e => rfl
  | ok tc =>
    simp only [Py.ok_bind]
    rw [timedLoop_eq _ rb tc]
    cases timedLoopLog _ _ _ _ with
    | error e => rfl
    | ok x => rfl

theorem initTrackers_apply (rb : RotationBuilder) (l : Log) :
    (rb.apply l).initTrackers = rb.initTrackers := rfl

theorem timedLog_apply (rb : RotationBuilder) (l : Log) : (rb.apply l).timedLog = rb.timedLog := rfl

/-- What processing both queues appends. -/
def queueLog (rb : RotationBuilder) : Py Log := do
  let l ← rb.seqLog
  let l' ← rb.timedLog
  return l.app l'

theorem processQueues_eq (rb : RotationBuilder) :
    (rb.processQSequence >>= fun rb => rb.processQTimed) =
      (rb.queueLog >>= fun l => .ok (rb.apply l)) := by
  rw [processQSequence_eq]
  unfold queueLog
  cases rb.seqLog with
  | error e => rfl
  | ok l =>
    simp only [Py.ok_bind]
    rw [processQTimed_eq, timedLog_apply]
    cases rb.timedLog with
    | error e => rfl
    | ok l' => simp [apply_app]

/-! ## Dots -/

/-- The events of the ticks of one range; the ticks of a dot are numbered over all its ranges. -/
def rangeAdds (snapDots : Option ℚ) (f : FollowUp) (target : String) (last : Option ℚ) :
    ℕ → List DotRange → Py (List NewEvent)
  | _, [] => .ok []
  | n, r :: rs => do
    let ticks ← pyRange (dotStart snapDots r.start) r.stop GameConsts.DOT_TICK_INTERVAL
    let live := ticks.filter (fun t => !tickSkipped last t)
    let rest ← rangeAdds snapDots f target last (n + live.length) rs
    return (live.zipIdx n).map (fun x => dotEvent f target r x.2 x.1) ++ rest

/-- The events of the ticks of one dot on one target. -/
def dotAdds (snapDots : Option ℚ) (target : String) (last : Option ℚ)
    (fa : FollowUp × List DotApp) : Py (List NewEvent) :=
  match fa.1.dotDuration with
  | none => .error .typeError
  | some duration => rangeAdds snapDots fa.1 target last 0 (consolidate (baseDotTimings duration fa.2))

/-- Concatenate the results of a function that may raise. -/
def flatM {A B : Type} (g : A → Py (List B)) : List A → Py (List B)
  | [] => .ok []
  | a :: as => do
    let x ← g a
    let y ← flatM g as
    return x ++ y

/-- The events of all ticks. -/
def allDotAdds (snapDots : Option ℚ) (last : Option ℚ) (dots : Dots) : Py (List NewEvent) :=
  flatM (fun td => flatM (dotAdds snapDots td.1 last) td.2) dots

/-- A builder after adding a list of events. -/
def addAll (rb : RotationBuilder) (as : List NewEvent) : RotationBuilder :=
  { rb with events := as.foldl Events.push rb.events }

@[simp] theorem addAll_nil (rb : RotationBuilder) : rb.addAll [] = rb := rfl

theorem addAll_append (rb : RotationBuilder) (as bs : List NewEvent) :
    rb.addAll (as ++ bs) = (rb.addAll as).addAll bs := by
  simp [addAll]

theorem addEvent_eq_addAll (rb : RotationBuilder) (a : NewEvent) :
    rb.addEvent a = .ok (rb.addAll [a]) := by
  unfold addEvent
  rw [Events.add_eq_push]
  rfl

theorem foldlM_eq_flatM {A : Type} (f : RotationBuilder → A → Py RotationBuilder)
    (g : A → Py (List NewEvent)) (C : RotationBuilder → Prop)
    (hC : ∀ rb as, C rb → C (rb.addAll as))
    (h : ∀ rb a, C rb → f rb a = (g a >>= fun as => .ok (rb.addAll as)))
    (rb : RotationBuilder) (hrb : C rb) (l : List A) :
    l.foldlM f rb = (flatM g l >>= fun as => .ok (rb.addAll as)) := by
  induction l generalizing rb with
  | nil => rfl
  | cons a l ih =>
    rw [Py.foldlM_cons, h rb a hrb, flatM]
    cases g a with
    | error e => rfl
    | ok x =>
      simp only [Py.ok_bind]
      rw [ih _ (hC _ _ hrb)]
      cases flatM g l with
      | error e => rfl
      | ok y => simp [addAll_append]

theorem ticks_eq (f : FollowUp) (target : String) (last : Option ℚ) (r : DotRange)
    (ticks : List ℤ) (rb : RotationBuilder) (n : ℕ) :
    ticks.foldlM (tickStep f target last r) (rb, n) =
      .ok (rb.addAll (((ticks.filter (fun t => !tickSkipped last t)).zipIdx n).map
        (fun x => dotEvent f target r x.2 x.1)),
        n + (ticks.filter (fun t => !tickSkipped last t)).length) := by
  induction ticks generalizing rb n with
  | nil => rfl
  | cons t ticks ih =>
    rw [Py.foldlM_cons]
    by_cases hs : tickSkipped last t = true
    · have h1 : tickStep f target last r (rb, n) t = .ok (rb, n) := by
        unfold tickStep
        rw [if_pos hs]
      rw [h1, Py.ok_bind, ih]
      simp [hs]
    · have h1 : tickStep f target last r (rb, n) t =
          .ok (rb.addAll [dotEvent f target r n t], n + 1) := by
        unfold tickStep
        rw [if_neg hs, addEvent_eq_addAll]
        rfl
      rw [h1, Py.ok_bind, ih]
      have hs' : tickSkipped last t = false := by simpa using hs
      simp only [List.filter_cons, hs', Bool.not_false, if_true, List.zipIdx_cons, List.map_cons,
        List.length_cons, Except.ok.injEq, Prod.mk.injEq]
      refine ⟨?_, by omega⟩
      rw [← addAll_append]
      rfl

theorem ranges_eq (f : FollowUp) (target : String) (last : Option ℚ) (rs : List DotRange)
    (rb : RotationBuilder) (n : ℕ) :
    (rs.foldlM (rangeStep f target last) (rb, n) >>= fun x => .ok x.1) =
      (rangeAdds rb.snapDots f target last n rs >>= fun as => .ok (rb.addAll as)) := by
  induction rs generalizing rb n with
  | nil => rfl
  | cons r rs ih =>
    rw [Py.foldlM_cons]
    unfold rangeStep rangeAdds
    cases pyRange (dotStart rb.snapDots r.start) r.stop GameConsts.DOT_TICK_INTERVAL with
    | error e => rfl
    | ok ticks =>
      simp only [Py.ok_bind]
      rw [ticks_eq]
      simp only [Py.ok_bind]
      have h := ih (rb.addAll (((ticks.filter (fun t => !tickSkipped last t)).zipIdx n).map
        (fun x => dotEvent f target r x.2 x.1))) (n + (ticks.filter (fun t => !tickSkipped last t)).length)
      unfold rangeStep at h
      rw [h]
      have hsn : (rb.addAll (((ticks.filter (fun t => !tickSkipped last t)).zipIdx n).map
        (fun x => dotEvent f target r x.2 x.1))).snapDots = rb.snapDots := rfl
      rw [hsn]
      cases rangeAdds rb.snapDots f target last
        (n + (ticks.filter (fun t => !tickSkipped last t)).length) rs with
      | error e => rfl
      | ok rest => simp [addAll_append]

theorem dotStep_eq (target : String) (last : Option ℚ) (rb : RotationBuilder)
    (fa : FollowUp × List DotApp) :
    dotStep target last rb fa =
      (dotAdds rb.snapDots target last fa >>= fun as => .ok (rb.addAll as)) := by
  unfold dotStep dotAdds
  cases fa.1.dotDuration with
  | none => rfl
  | some d => exact ranges_eq fa.1 target last _ rb 0

theorem processAllDots_eq (rb : RotationBuilder) (last : Option ℚ) :
    rb.processAllDots last =
      (allDotAdds rb.snapDots last rb.qDot >>= fun as => .ok (rb.addAll as)) := by
  unfold processAllDots allDotAdds
  refine foldlM_eq_flatM _ _ (fun r => r.snapDots = rb.snapDots) (fun _ _ h => h) ?_ rb rfl rb.qDot
  intro r td hr
  refine foldlM_eq_flatM _ _ (fun r => r.snapDots = rb.snapDots) (fun _ _ h => h) ?_ r hr td.2
  intro r fa hr
  rw [dotStep_eq, hr]

/-! ## The whole of `get_skill_timing` -/

/-- The builder at the start of `get_skill_timing`. -/
def start (rb : RotationBuilder) : RotationBuilder :=
  { rb.processDowntimeWindows with events := {}, presses := [] }

/-- The last event time used for dots and autos. -/
def lastFor (rb : RotationBuilder) : Option ℚ :=
  if rb.ignoreTrailingDots then rb.events.getLastEventTime else none

/-- Normalisation, unless there is a fight start time. -/
def shiftIfNeeded (rb : RotationBuilder) : Py RotationBuilder :=
  if rb.fightStart.isNone then rb.shiftTimelines else .ok rb

/-- The steps after the timeline has been collected. -/
def finish (rb : RotationBuilder) : Py RotationBuilder := do
  let rb ← rb.shiftIfNeeded
  let rb ← rb.removeDamageDuringDowntime
  return { rb with presses := sortBy (·.t) rb.presses }

theorem getSkillTiming_eq (fuel : ℕ) (rb : RotationBuilder) :
    rb.getSkillTiming fuel = (do
      let l ← rb.start.queueLog
      let as ← allDotAdds rb.snapDots (rb.start.apply l).lastFor (addDots rb.qDot l.dots)
      let rb' := (rb.start.apply l).addAll as
      let rb' ← if rb.enableAutos then rb'.addAutos fuel (rb.start.apply l).lastFor else pure rb'
      finish rb') := by
  unfold getSkillTiming
  have h0 : rb.start.enableAutos = rb.enableAutos ∧ rb.start.snapDots = rb.snapDots ∧
      rb.start.qDot = rb.qDot := by
    unfold start processDowntimeWindows
    cases rb.downtime <;> exact ⟨rfl, rfl, rfl⟩
  change (rb.start.processQSequence >>= fun r => r.processQTimed >>= _) = _
  rw [← bind_assoc, processQueues_eq]
  cases rb.start.queueLog with
  | error e => rfl
  | ok l =>
    simp only [Py.ok_bind]
    rw [processAllDots_eq]
    have h1 : (rb.start.apply l).snapDots = rb.snapDots := h0.2.1
    have h2 : (rb.start.apply l).qDot = addDots rb.qDot l.dots := by
      unfold apply
      simp only [h0.2.2]
    rw [h1, h2]
    cases hd : allDotAdds rb.snapDots (rb.start.apply l).lastFor (addDots rb.qDot l.dots) with
    | error e =>
      unfold lastFor at hd
      simp only [hd]
      rfl
    | ok as =>
      have hd' := hd
      unfold lastFor at hd
      simp only [hd, Py.ok_bind]
      have h3 : ((rb.start.apply l).addAll as).enableAutos = rb.enableAutos := h0.1
      simp only [h3]
      have h4 : ∀ r : RotationBuilder, finish r = (do
          let rb ← if r.fightStart.isNone then r.shiftTimelines else pure r
          let rb ← rb.removeDamageDuringDowntime
          return { rb with presses := sortBy (·.t) rb.presses }) := by
        intro r
        unfold finish shiftIfNeeded
        cases r.fightStart.isNone <;> rfl
      simp only [h4]
      cases rb.enableAutos <;> rfl

end RotationBuilder

end Ama
