import Verif.Lemmas.BuilderEvents

/-!
# What processing the queues appends, one use of a skill at a time
-/

namespace Ama

open Spec

/-- One processed use of a skill. -/
structure Use where
  t : ℚ
  skill : Skill
  asked : SkillModifier
  jobClass : String
  modifier : SkillModifier
  buffs : StatusEffects
  debuffs : StatusEffects
  targets : List String
  timing : Option TimingSpec
  cast : ℚ
  application : ℚ
  followUps : List FollowUp

namespace Use

/-- When the use snapshots. -/
def snapshot (u : Use) : ℚ :=
  u.t + max 0 (u.cast - GameConsts.DAMAGE_SNAPSHOT_TIME_BEFORE_CAST_FINISHES)

/-- The event of the use itself. -/
def mainEvent (u : Use) : NewEvent :=
  { priority := Utils.transformTimeToPrio u.snapshot
    primary := u.snapshot
    secondary := some u.application
    skill := u.skill
    modifier := u.modifier
    snapshotBuffs := .flag true
    snapshotDebuffs := .flag true
    targets := u.targets }

/-- The targets of a follow-up. -/
def targetsOf (u : Use) (f : FollowUp) : List String :=
  if f.primaryTargetOnly then u.targets.take 1 else u.targets

/-- The events of the follow-ups that are not dots. -/
def followUpEvents (u : Use) : List NewEvent :=
  (u.followUps.zipIdx.filter (fun fi => !fi.1.dotDuration.isSome)).map (fun fi =>
    RotationBuilder.followUpEvent fi.1 (fi.2 + 1) u.snapshot u.application (u.targetsOf fi.1))

/-- The dot applications. -/
def dots (u : Use) : List (String × FollowUp × DotApp) :=
  (u.followUps.zipIdx.filter (fun fi => fi.1.dotDuration.isSome)).flatMap (fun fi =>
    u.targets.map (fun target => (target, fi.1,
      { snapshot := u.snapshot, application := u.application, prioMod := fi.2 + 1 })))

/-- The recorded press. -/
def press (stats : Stats) (u : Use) : Press :=
  { t := u.t, name := u.skill.name,
    jobClass := if u.jobClass ≠ stats.jobClass then u.jobClass else "",
    conds := u.asked.withCondition }

/-- Everything a use appends. -/
def log (stats : Stats) (u : Use) : Log :=
  { adds := u.mainEvent :: u.followUpEvents
    dots := u.dots
    presses := [u.press stats]
    stamps := [(u.t, u.targets.headD "")] }

/-- The use is processed according to the data of its skill. -/
structure Valid (stats : Stats) (u : Use) : Prop where
  timing : u.skill.getTimingSpec u.modifier = .ok u.timing
  cast : RotationBuilder.getCastTime stats u.timing u.modifier u.buffs = .ok u.cast
  application : RotationBuilder.applicationTimeOf u.t u.cast u.modifier u.timing = .ok u.application
  followUps : u.skill.getFollowUpSkills u.modifier = .ok u.followUps
  targets : u.targets ≠ []
  conds : u.asked.withCondition ⊆ u.modifier.withCondition
  ignoreCast : u.modifier.ignoreCastTimes = u.asked.ignoreCastTimes
  ignoreDelay : u.modifier.ignoreApplicationDelay = u.asked.ignoreApplicationDelay
  same : u.modifier = { u.asked with withCondition := u.modifier.withCondition }

end Use

/-- The logs of the uses one after the other. -/
def logsOf (stats : Stats) (us : List Use) : Log :=
  us.foldr (fun u l => (u.log stats).app l) {}

theorem logsOf_cons (stats : Stats) (u : Use) (us : List Use) :
    logsOf stats (u :: us) = (u.log stats).app (logsOf stats us) := rfl

theorem logsOf_append (stats : Stats) (us vs : List Use) :
    logsOf stats (us ++ vs) = (logsOf stats us).app (logsOf stats vs) := by
  induction us with
  | nil => rfl
  | cons u us ih => rw [List.cons_append, logsOf_cons, ih, logsOf_cons, Log.app_assoc]

theorem logsOf_adds (stats : Stats) (us : List Use) :
    (logsOf stats us).adds = us.flatMap (fun u => u.mainEvent :: u.followUpEvents) := by
  induction us with
  | nil => rfl
  | cons u us ih =>
    rw [logsOf_cons, Log.app_adds, ih]
    rfl

theorem logsOf_dots (stats : Stats) (us : List Use) : (logsOf stats us).dots = us.flatMap Use.dots := by
  induction us with
  | nil => rfl
  | cons u us ih =>
    rw [logsOf_cons, Log.app_dots, ih]
    rfl

theorem logsOf_presses (stats : Stats) (us : List Use) :
    (logsOf stats us).presses = us.map (Use.press stats) := by
  induction us with
  | nil => rfl
  | cons u us ih =>
    rw [logsOf_cons, Log.app_presses, ih]
    rfl

theorem logsOf_stamps (stats : Stats) (us : List Use) :
    (logsOf stats us).stamps = us.map (fun u => (u.t, u.targets.headD "")) := by
  induction us with
  | nil => rfl
  | cons u us ih =>
    rw [logsOf_cons, Log.app_stamps, ih]
    rfl

/-! ## Conditions only grow -/

theorem addToCondition_fields (m : SkillModifier) (c : String) :
    m.withCondition ⊆ (m.addToCondition c).withCondition ∧
      (m.addToCondition c).ignoreCastTimes = m.ignoreCastTimes ∧
      (m.addToCondition c).ignoreApplicationDelay = m.ignoreApplicationDelay := by
  unfold SkillModifier.addToCondition
  split_ifs
  · exact ⟨Finset.Subset.refl _, rfl, rfl⟩
  · exact ⟨Finset.subset_union_left, rfl, rfl⟩

theorem addToCondition_same (m : SkillModifier) (c : String) :
    m.addToCondition c = { m with withCondition := (m.addToCondition c).withCondition } := by
  unfold SkillModifier.addToCondition
  split_ifs <;> rfl

theorem addToCondition_bonus (m : SkillModifier) (c : String) :
    (m.addToCondition c).bonusPercent = m.bonusPercent := by
  unfold SkillModifier.addToCondition
  split_ifs <;> rfl

theorem addConditions_fields (m : SkillModifier) (c : Conds) :
    m.withCondition ⊆ (m.addConditions c).withCondition ∧
      (m.addConditions c).ignoreCastTimes = m.ignoreCastTimes ∧
      (m.addConditions c).ignoreApplicationDelay = m.ignoreApplicationDelay := by
  unfold SkillModifier.addConditions
  split_ifs
  · exact ⟨Finset.Subset.refl _, rfl, rfl⟩
  · exact ⟨Finset.subset_union_left, rfl, rfl⟩

theorem addPositional_fields {skill : Skill} {m m' : SkillModifier}
    (h : Utils.addPositional skill m = .ok m') :
    m.withCondition ⊆ m'.withCondition ∧ m'.ignoreCastTimes = m.ignoreCastTimes ∧
      m'.ignoreApplicationDelay = m.ignoreApplicationDelay := by
  unfold Utils.addPositional at h
  split at h
  · cases h
    exact addConditions_fields _ _
  · cases h
    exact ⟨Finset.Subset.refl _, rfl, rfl⟩
  · cases h

theorem addPositional_same {skill : Skill} {m m' : SkillModifier}
    (h : Utils.addPositional skill m = .ok m') : m' = { m with withCondition := m'.withCondition } := by
  unfold Utils.addPositional at h
  split at h
  · cases h
    unfold SkillModifier.addConditions
    split_ifs <;> rfl
  · cases h
    rfl
  · cases h

theorem addPositional_bonus {skill : Skill} {m m' : SkillModifier}
    (h : Utils.addPositional skill m = .ok m') : m'.bonusPercent = m.bonusPercent := by
  unfold Utils.addPositional at h
  split at h
  · cases h
    unfold SkillModifier.addConditions
    split_ifs <;> rfl
  · cases h
    rfl
  · cases h

namespace RotationBuilder

theorem resolveConditions_fields {t : ℚ} {skill : Skill} {m m' : SkillModifier} {tr tr' : Trackers}
    {b d : StatusEffects} (h : resolveConditions t skill m tr = .ok (b, d, m', tr')) :
    m.withCondition ⊆ m'.withCondition ∧ m'.ignoreCastTimes = m.ignoreCastTimes ∧
      m'.ignoreApplicationDelay = m.ignoreApplicationDelay := by
  unfold resolveConditions at h
  obtain ⟨⟨⟨b1, c1⟩, se1⟩, _, h⟩ := Py.bind_eq_ok.1 h
  obtain ⟨⟨⟨b2, c2⟩, se2⟩, _, h⟩ := Py.bind_eq_ok.1 h
  obtain ⟨⟨c3, res⟩, _, h⟩ := Py.bind_eq_ok.1 h
  cases h
  obtain ⟨a1, a2, a3⟩ := addToCondition_fields m c1
  obtain ⟨b1, b2, b3⟩ := addToCondition_fields (m.addToCondition c1) c2
  obtain ⟨d1, d2, d3⟩ := addToCondition_fields ((m.addToCondition c1).addToCondition c2) c3
  exact ⟨(a1.trans b1).trans d1, by rw [d2, b2, a2], by rw [d3, b3, a3]⟩

theorem resolve_fields {t : ℚ} {skill : Skill} {m : SkillModifier} {tr : Trackers}
    {combo : ComboTracker} {r : Resolved} (h : resolve t skill m tr combo = .ok r) :
    m.withCondition ⊆ r.modifier.withCondition ∧
      r.modifier.ignoreCastTimes = m.ignoreCastTimes ∧
      r.modifier.ignoreApplicationDelay = m.ignoreApplicationDelay := by
  unfold resolve at h
  obtain ⟨⟨b, d, m1, tr1⟩, h1, h⟩ := Py.bind_eq_ok.1 h
  obtain ⟨⟨c, combo1⟩, _, h⟩ := Py.bind_eq_ok.1 h
  obtain ⟨m2, h3, h⟩ := Py.bind_eq_ok.1 h
  cases h
  obtain ⟨a1, a2, a3⟩ := resolveConditions_fields h1
  obtain ⟨b1, b2, b3⟩ := addToCondition_fields m1 c
  obtain ⟨d1, d2, d3⟩ := addPositional_fields h3
  exact ⟨(a1.trans b1).trans d1, by rw [d2, b2, a2], by rw [d3, b3, a3]⟩

theorem resolve_same {t : ℚ} {skill : Skill} {m : SkillModifier} {tr : Trackers}
    {combo : ComboTracker} {r : Resolved} (h : resolve t skill m tr combo = .ok r) :
    r.modifier = { m with withCondition := r.modifier.withCondition } := by
  unfold resolve at h
  obtain ⟨⟨b, d, m1, tr1⟩, h1, h⟩ := Py.bind_eq_ok.1 h
  obtain ⟨⟨c, combo1⟩, _, h⟩ := Py.bind_eq_ok.1 h
  obtain ⟨m2, h3, h⟩ := Py.bind_eq_ok.1 h
  cases h
  unfold resolveConditions at h1
  obtain ⟨⟨⟨b1, c1⟩, se1⟩, _, h1⟩ := Py.bind_eq_ok.1 h1
  obtain ⟨⟨⟨b2, c2⟩, se2⟩, _, h1⟩ := Py.bind_eq_ok.1 h1
  obtain ⟨⟨c3, res⟩, _, h1⟩ := Py.bind_eq_ok.1 h1
  cases h1
  rw [addPositional_same h3, addToCondition_same _ c, addToCondition_same _ c3, addToCondition_same _ c2,
    addToCondition_same _ c1]

/-! ## Follow-ups -/

theorem pyIdx_zero {l : List String} {x : String} (h : pyIdx l 0 = .ok x) :
    l ≠ [] ∧ l.headD "" = x ∧ l.take 1 = [x] := by
  cases l with
  | nil => cases h
  | cons a l =>
    simp only [pyIdx, List.getElem?_cons_zero, Except.ok.injEq] at h
    subst h
    simp

theorem followUps_log (snap app : ℚ) (targets : List String) (fs : List (FollowUp × ℕ))
    (tr tr' : Trackers) (l : Log)
    (h : foldLog (followUpLog snap app targets) tr fs = .ok (l, tr')) :
    l = { adds := (fs.filter (fun fi => !fi.1.dotDuration.isSome)).map (fun fi =>
            followUpEvent fi.1 (fi.2 + 1) snap app
              (if fi.1.primaryTargetOnly then targets.take 1 else targets))
          dots := (fs.filter (fun fi => fi.1.dotDuration.isSome)).flatMap (fun fi =>
            targets.map (fun target => (target, fi.1,
              { snapshot := snap, application := app, prioMod := fi.2 + 1 }))) } := by
  induction fs generalizing tr l with
  | nil =>
    cases h
    rfl
  | cons fi fs ih =>
    unfold foldLog at h
    obtain ⟨⟨l1, tr1⟩, h1, h⟩ := Py.bind_eq_ok.1 h
    obtain ⟨⟨l2, tr2⟩, h2, h⟩ := Py.bind_eq_ok.1 h
    cases h
    rw [ih _ _ h2]
    unfold followUpLog at h1
    by_cases hd : fi.1.dotDuration.isSome = true
    · simp only [hd, if_true, Except.ok.injEq, Prod.mk.injEq] at h1
      obtain ⟨rfl, rfl⟩ := h1
      simp only [Log.app, List.filter_cons, hd, Bool.not_true, if_true, Bool.false_eq_true, if_false,
        List.flatMap_cons, List.nil_append, List.append_nil]
    · simp only [hd, if_false, Bool.false_eq_true] at h1
      obtain ⟨ts, ht, h1⟩ : ∃ ts, ts = (if fi.1.primaryTargetOnly then targets.take 1 else targets) ∧
          (tr.se.add (app + ↑fi.1.delayAfterParentApplication) fi.1.skill {} ts >>= fun se =>
            tr.res.addResource (app + ↑fi.1.delayAfterParentApplication) fi.1.skill {} >>=
            fun res => (pure (({ adds := [followUpEvent fi.1 (↑fi.2 + 1) snap app ts] } : Log),
              ({ se := se, res := res } : Trackers)) : Py _)) = .ok (l1, tr1) := by
        by_cases hp : fi.1.primaryTargetOnly = true
        · simp only [hp, if_true] at h1 ⊢
          obtain ⟨x, hx, h1⟩ := Py.bind_eq_ok.1 h1
          obtain ⟨_, _, h3⟩ := pyIdx_zero hx
          rw [h3]
          exact ⟨_, rfl, h1⟩
        · simp only [hp, if_false, Bool.false_eq_true] at h1 ⊢
          exact ⟨_, rfl, h1⟩
      obtain ⟨se, _, h1⟩ := Py.bind_eq_ok.1 h1
      obtain ⟨res, _, h1⟩ := Py.bind_eq_ok.1 h1
      cases h1
      have hd' : fi.1.dotDuration.isSome = false := by simpa using hd
      simp only [Log.app, List.filter_cons, hd', Bool.not_false, if_true, Bool.false_eq_true, if_false,
        List.map_cons, List.nil_append, List.append_nil, ht, List.cons_append]

theorem processSkillLog_spec {stats : Stats} {t : ℚ} {skill : Skill} {m : SkillModifier}
    {tr tr' : Trackers} {buffs : StatusEffects} {targets : List String} {l : Log}
    (h : processSkillLog stats t skill m tr buffs targets = .ok (l, tr')) :
    ∃ timing cast application followUps,
      skill.getTimingSpec m = .ok timing ∧ getCastTime stats timing m buffs = .ok cast ∧
      applicationTimeOf t cast m timing = .ok application ∧
      skill.getFollowUpSkills m = .ok followUps ∧
      ∀ asked jobClass debuffs,
        let u : Use := { t := t, skill := skill, asked := asked, jobClass := jobClass, modifier := m,
                         buffs := buffs, debuffs := debuffs, targets := targets, timing := timing,
                         cast := cast, application := application, followUps := followUps }
        l = { adds := u.mainEvent :: u.followUpEvents, dots := u.dots } := by
  unfold processSkillLog at h
  obtain ⟨timing, h1, h⟩ := Py.bind_eq_ok.1 h
  obtain ⟨cast, h2, h⟩ := Py.bind_eq_ok.1 h
  obtain ⟨application, h3, h⟩ := Py.bind_eq_ok.1 h
  obtain ⟨se, _, h⟩ := Py.bind_eq_ok.1 h
  obtain ⟨res, _, h⟩ := Py.bind_eq_ok.1 h
  obtain ⟨fs, h4, h⟩ := Py.bind_eq_ok.1 h
  obtain ⟨⟨l1, tr1⟩, h5, h⟩ := Py.bind_eq_ok.1 h
  cases h
  refine ⟨timing, cast, application, fs, h1, h2, h3, h4, ?_⟩
  intro asked jobClass debuffs
  rw [followUps_log _ _ _ _ _ _ _ h5]
  rfl

/-! ## The two queues -/

/-- The use belongs to the entry of the timed queue. -/
def UseOfTimed (stats : Stats) (p : TimedPress) (u : Use) : Prop :=
  u.Valid stats ∧ u.t = p.t ∧ u.skill = p.skill ∧ u.asked = p.modifier ∧ u.jobClass = p.jobClass ∧
    u.targets = p.targets

/-- The use belongs to the entry of the sequence. -/
def UseOfSeq (stats : Stats) (p : SeqPress) (u : Use) : Prop :=
  u.Valid stats ∧ u.skill = p.skill ∧ u.asked = p.modifier ∧ u.jobClass = p.jobClass ∧
    u.targets = p.targets

theorem timedStepLog_spec {stats : Stats} {s s' : Trackers × ComboTracker} {p : TimedPress} {l : Log}
    (h : timedStepLog stats s p = .ok (l, s')) :
    ∃ u, UseOfTimed stats p u ∧ l = u.log stats := by
  unfold timedStepLog at h
  obtain ⟨r, h1, h⟩ := Py.bind_eq_ok.1 h
  obtain ⟨target, h2, h⟩ := Py.bind_eq_ok.1 h
  obtain ⟨⟨l1, tr1⟩, h3, h⟩ := Py.bind_eq_ok.1 h
  cases h
  obtain ⟨timing, cast, application, fs, g1, g2, g3, g4, g5⟩ := processSkillLog_spec h3
  obtain ⟨k1, k2, k3⟩ := resolve_fields h1
  obtain ⟨t1, t2, _⟩ := pyIdx_zero h2
  refine ⟨{ t := p.t, skill := p.skill, asked := p.modifier, jobClass := p.jobClass,
            modifier := r.modifier, buffs := r.buffs, debuffs := r.debuffs, targets := p.targets,
            timing := timing, cast := cast, application := application, followUps := fs },
    ⟨⟨g1, g2, g3, g4, t1, k1, k2, k3, resolve_same h1⟩, rfl, rfl, rfl, rfl, rfl⟩, ?_⟩
  simp only
  rw [g5 p.modifier p.jobClass r.debuffs]
  simp only [Use.log, Use.press, t2, Log.app]
  rfl

theorem timedPress_ltSound : Heapq.LtSound TimedPress.pyLt TimedPress.t := by
  intro a b r h
  unfold TimedPress.pyLt at h
  by_cases ht : a.t ≠ b.t
  · rw [if_pos ht] at h
    simp only [Except.ok.injEq] at h
    cases r with
    | true =>
      rw [if_pos rfl]
      exact le_of_lt (of_decide_eq_true h)
    | false =>
      rw [if_neg (by simp)]
      exact not_lt.1 (of_decide_eq_false h)
  · have : a.t = b.t := not_not.1 ht
    cases r <;> simp [this]

/-- The order in which the heap hands out the timed presses, given that this does not raise. -/
theorem timedLoopLog_spec (stats : Stats) (n : ℕ) (s s' : Trackers × ComboTracker)
    (q : List TimedPress) (l : Log) (hq : Heapq.IsHeap TimedPress.t q)
    (h : timedLoopLog stats n s q = .ok (l, s')) :
    ∃ order us, List.Forall₂ (UseOfTimed stats) order us ∧ l = logsOf stats us ∧
      order.Perm q ∧ foldLog (timedStepLog stats) s order = .ok (l, s') ∧
      order.Pairwise (fun a b => a.t ≤ b.t) := by
  induction n generalizing s q l with
  | zero =>
    unfold timedLoopLog at h
    split_ifs at h with hl
    cases h
    have : q = [] := List.length_eq_zero_iff.1 (by omega)
    subst this
    exact ⟨[], [], .nil, rfl, .refl _, rfl, .nil⟩
  | succ n ih =>
    unfold timedLoopLog at h
    split_ifs at h with hl
    · obtain ⟨⟨p, q'⟩, h1, h⟩ := Py.bind_eq_ok.1 h
      obtain ⟨⟨l1, s1⟩, h2, h⟩ := Py.bind_eq_ok.1 h
      obtain ⟨⟨l2, s2⟩, h3, h⟩ := Py.bind_eq_ok.1 h
      cases h
      obtain ⟨k1, k2, k3⟩ := Heapq.heappop_spec timedPress_ltSound hq h1
      obtain ⟨u, hu, rfl⟩ := timedStepLog_spec h2
      obtain ⟨order, us, g1, g2, g3, g4, g5⟩ := ih _ _ _ k1 h3
      refine ⟨p :: order, u :: us, .cons hu g1, ?_, (g3.cons p).trans k2.symm, ?_, ?_⟩
      · rw [logsOf_cons, g2]
      · unfold foldLog
        simp only [h2, Py.ok_bind]
        simp only at g4
        rw [g4]
        rfl
      · refine List.Pairwise.cons (fun b hb => k3 b ?_) g5
        exact k2.mem_iff.2 (List.mem_cons_of_mem _ (g3.mem_iff.1 hb))
    · cases h
      have : q = [] := List.length_eq_zero_iff.1 (by omega)
      subst this
      exact ⟨[], [], .nil, rfl, .refl _, rfl, .nil⟩

theorem timedLog_spec {rb : RotationBuilder} {l : Log} (h : rb.timedLog = .ok l) :
    ∃ order us, List.Forall₂ (UseOfTimed rb.stats) order us ∧ l = logsOf rb.stats us ∧
      order.Perm rb.qTimed ∧ order.Pairwise (fun a b => a.t ≤ b.t) := by
  unfold timedLog at h
  obtain ⟨tc, _, h⟩ := Py.bind_eq_ok.1 h
  obtain ⟨⟨l1, s1⟩, h2, h⟩ := Py.bind_eq_ok.1 h
  cases h
  obtain ⟨order, us, g1, g2, g3, _, g5⟩ := timedLoopLog_spec _ _ _ _ _ _
    (Heapq.isHeap_of_sorted (sortBy_sorted _ _)) h2
  exact ⟨order, us, g1, g2, g3.trans (sortBy_perm _ _), g5⟩

/-- How a use in the sequence is timed. -/
structure SeqTimed (stats : Stats) (st : SeqRest) (u : Use) (st' : SeqRest) : Prop where
  time : u.t = pressTime (u.skill.isGCD.getD false) st.currT st.nextGcd
  next : ∃ ts, u.timing = some ts ∧
    if u.skill.isGCD = some true then
      ∃ recast, recastTime stats ts u.buffs u.debuffs = .ok recast ∧
        st'.currT = u.t + (u.cast + ts.animationLock) ∧
        st'.nextGcd = ((u.t + recast : ℚ) : WithBot ℚ)
    else st'.currT = u.t + ts.animationLock ∧ st'.nextGcd = st.nextGcd

theorem seqStepLog_spec {stats : Stats} {st st' : SeqRest} {p : SeqPress} {l : Log}
    (h : seqStepLog stats st p = .ok (l, st')) :
    ∃ u, UseOfSeq stats p u ∧ l = u.log stats ∧ SeqTimed stats st u st' := by
  unfold seqStepLog at h
  obtain ⟨r, h1, h⟩ := Py.bind_eq_ok.1 h
  obtain ⟨timing, h2, h⟩ := Py.bind_eq_ok.1 h
  obtain ⟨target, h3, h⟩ := Py.bind_eq_ok.1 h
  obtain ⟨⟨l1, tr1⟩, h4, h⟩ := Py.bind_eq_ok.1 h
  obtain ⟨ts, h5, hf⟩ := Py.bind_eq_ok.1 h
  clear h
  have hts : timing = some ts := by
    cases timing with
    | none => cases h5
    | some x =>
      cases h5
      rfl
  rw [hts] at h2
  clear hts h5
  obtain ⟨timing, cast, application, fs, g1, g2, g3, g4, g5⟩ := processSkillLog_spec h4
  rw [h2] at g1
  cases g1
  obtain ⟨k1, k2, k3⟩ := resolve_fields h1
  obtain ⟨t1, t2, _⟩ := pyIdx_zero h3
  refine ⟨{ t := pressTime (p.skill.isGCD.getD false) st.currT st.nextGcd, skill := p.skill,
            asked := p.modifier, jobClass := p.jobClass,
            modifier := r.modifier, buffs := r.buffs, debuffs := r.debuffs, targets := p.targets,
            timing := some ts, cast := cast, application := application, followUps := fs },
    ⟨⟨h2, g2, g3, g4, t1, k1, k2, k3, resolve_same h1⟩, rfl, rfl, rfl, rfl⟩, ?_⟩
  have hlog := g5 p.modifier p.jobClass r.debuffs
  by_cases hg : p.skill.isGCD = some true
  · have hg' : p.skill.isGCD.getD false = true := by rw [hg]; rfl
    rw [if_pos hg'] at hf
    obtain ⟨recast, h6, hf⟩ := Py.bind_eq_ok.1 hf
    obtain ⟨cast', h7, hf⟩ := Py.bind_eq_ok.1 hf
    rw [g2] at h7
    cases h7
    cases hf
    refine ⟨?_, rfl, ts, rfl, ?_⟩
    · simp only
      rw [hlog]
      simp only [Use.log, Use.press, t2, Log.app]
      rfl
    · rw [if_pos hg]
      exact ⟨recast, h6, rfl, rfl⟩
  · have hg' : ¬ p.skill.isGCD.getD false = true := by
      intro h
      cases hx : p.skill.isGCD with
      | none =>
        rw [hx] at h
        cases h
      | some b =>
        rw [hx] at h
        have hb : b = true := h
        subst hb
        exact hg hx
    rw [if_neg hg'] at hf
    cases hf
    refine ⟨?_, rfl, ts, rfl, ?_⟩
    · simp only
      rw [hlog]
      simp only [Use.log, Use.press, t2, Log.app]
      rfl
    · rw [if_neg hg]
      exact ⟨rfl, rfl⟩

/-- The uses of a sequence follow one another. -/
inductive SeqRun (stats : Stats) : SeqRest → List Use → SeqRest → Prop
  | nil (st : SeqRest) : SeqRun stats st [] st
  | cons (st st1 st2 : SeqRest) (u : Use) (us : List Use) :
      SeqTimed stats st u st1 → SeqRun stats st1 us st2 → SeqRun stats st (u :: us) st2

theorem seqFold_spec {stats : Stats} {st st' : SeqRest} {q : List SeqPress} {l : Log}
    (h : foldLog (seqStepLog stats) st q = .ok (l, st')) :
    ∃ us, List.Forall₂ (UseOfSeq stats) q us ∧ l = logsOf stats us ∧ SeqRun stats st us st' := by
  induction q generalizing st l with
  | nil =>
    cases h
    exact ⟨[], .nil, rfl, .nil _⟩
  | cons p q ih =>
    unfold foldLog at h
    obtain ⟨⟨l1, st1⟩, h1, h⟩ := Py.bind_eq_ok.1 h
    obtain ⟨⟨l2, st2⟩, h2, h⟩ := Py.bind_eq_ok.1 h
    cases h
    obtain ⟨u, g1, rfl, g3⟩ := seqStepLog_spec h1
    obtain ⟨us, k1, rfl, k3⟩ := ih h2
    exact ⟨u :: us, .cons g1 k1, rfl, .cons _ _ _ _ _ g3 k3⟩

theorem seqLog_spec {rb : RotationBuilder} {l : Log} (h : rb.seqLog = .ok l) :
    ∃ us st st', List.Forall₂ (UseOfSeq rb.stats) rb.qSequence us ∧ l = logsOf rb.stats us ∧
      SeqRun rb.stats st us st' ∧ st.currT = rb.fightStart.getD 0 ∧ st.nextGcd = ⊥ := by
  unfold seqLog at h
  obtain ⟨tc, _, h⟩ := Py.bind_eq_ok.1 h
  obtain ⟨⟨l1, s1⟩, h2, h⟩ := Py.bind_eq_ok.1 h
  cases h
  obtain ⟨us, g1, g2, g3⟩ := seqFold_spec h2
  exact ⟨us, _, _, g1, g2, g3, rfl, rfl⟩

/-- What processing both queues appends. -/
theorem queueLog_spec {rb : RotationBuilder} {l : Log} (h : rb.queueLog = .ok l) :
    ∃ su tu order, l = logsOf rb.stats (su ++ tu) ∧
      List.Forall₂ (UseOfSeq rb.stats) rb.qSequence su ∧
      List.Forall₂ (UseOfTimed rb.stats) order tu ∧ order.Perm rb.qTimed ∧
      order.Pairwise (fun a b => a.t ≤ b.t) ∧
      ∃ st st', SeqRun rb.stats st su st' ∧ st.currT = rb.fightStart.getD 0 ∧ st.nextGcd = ⊥ := by
  unfold queueLog at h
  obtain ⟨l1, h1, h⟩ := Py.bind_eq_ok.1 h
  obtain ⟨l2, h2, h⟩ := Py.bind_eq_ok.1 h
  cases h
  obtain ⟨us, st, st', g1, rfl, g3, g4⟩ := seqLog_spec h1
  obtain ⟨order, vs, k1, rfl, k3, k4⟩ := timedLog_spec h2
  exact ⟨us, vs, order, (logsOf_append _ _ _).symm, g1, k1, k3, k4, st, st', g3, g4⟩

theorem forall₂_mem_right' {A B : Type} {R : A → B → Prop} {as : List A} {bs : List B}
    (h : List.Forall₂ R as bs) {b : B} (hb : b ∈ bs) : ∃ a ∈ as, R a b := by
  induction h with
  | nil => simp at hb
  | cons h _ ih =>
    rcases List.mem_cons.1 hb with rfl | hb'
    · exact ⟨_, by simp, h⟩
    · obtain ⟨p, hp, h⟩ := ih hb'
      exact ⟨p, by simp [hp], h⟩

/-- A use comes from one of the queues. -/
theorem queue_use {rb : RotationBuilder} {su tu : List Use} {order : List TimedPress}
    (h1 : List.Forall₂ (UseOfSeq rb.stats) rb.qSequence su)
    (h2 : List.Forall₂ (UseOfTimed rb.stats) order tu) (h3 : order.Perm rb.qTimed) {u : Use}
    (hu : u ∈ su ++ tu) :
    u.Valid rb.stats ∧
      ((∃ p ∈ rb.qSequence, UseOfSeq rb.stats p u) ∨ ∃ p ∈ rb.qTimed, UseOfTimed rb.stats p u) := by
  rcases List.mem_append.1 hu with hu | hu
  · obtain ⟨p, hp, h⟩ := forall₂_mem_right' h1 hu
    exact ⟨h.1, .inl ⟨p, hp, h⟩⟩
  · obtain ⟨p, hp, h⟩ := forall₂_mem_right' h2 hu
    exact ⟨h.1, .inr ⟨p, h3.mem_iff.1 hp, h⟩⟩

end RotationBuilder

end Ama
