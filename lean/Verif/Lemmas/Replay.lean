import Verif.Spec.Replay
import Verif.Lemmas.BuilderFrame
import Verif.Lemmas.BuilderPresses
import Verif.Lemmas.BuilderAdd
import Verif.Lemmas.BuilderSafe

/-!
# Lemmas on playing a sequence again at the times worked out for it
-/

namespace Ama

open Spec

namespace RotationBuilder

/-- The timed press does what the press of the sequence does. -/
def SamePress (p : SeqPress) (q : TimedPress) : Prop :=
  q.skill = p.skill ∧ q.modifier = p.modifier ∧ q.jobClass = p.jobClass ∧ q.targets = p.targets

theorem seqStep_timed {stats : Stats} {st st' : SeqRest} {p : SeqPress} {q : TimedPress} {l : Log}
    (h : seqStepLog stats st p = .ok (l, st')) (hp : SamePress p q)
    (ht : ((q.t : ℤ) : ℚ) = pressTime (p.skill.isGCD.getD false) st.currT st.nextGcd) :
    timedStepLog stats (st.tr, st.combo) q = .ok (l, (st'.tr, st'.combo)) := by
  obtain ⟨e1, e2, e3, e4⟩ := hp
  unfold seqStepLog at h
  unfold timedStepLog
  rw [e1, e2, e3, e4, ht]
  obtain ⟨r, h1, h⟩ := Py.bind_eq_ok.1 h
  obtain ⟨timing, h2, h⟩ := Py.bind_eq_ok.1 h
  obtain ⟨target, h3, h⟩ := Py.bind_eq_ok.1 h
  obtain ⟨x, h4, h⟩ := Py.bind_eq_ok.1 h
  obtain ⟨ts, h5, h⟩ := Py.bind_eq_ok.1 h
  simp only [h1, h3, h4, Py.ok_bind, Py.pure_eq]
  by_cases hg : p.skill.isGCD.getD false = true
  · rw [if_pos hg] at h
    obtain ⟨recast, h6, h⟩ := Py.bind_eq_ok.1 h
    obtain ⟨cast, h7, h⟩ := Py.bind_eq_ok.1 h
    cases h
    rfl
  · rw [if_neg hg] at h
    cases h
    rfl

theorem seqFold_timed {stats : Stats} {st st' : SeqRest} {ps : List SeqPress} {qs : List TimedPress}
    {l : Log} (h : foldLog (seqStepLog stats) st ps = .ok (l, st'))
    (hp : List.Forall₂ SamePress ps qs)
    (ht : l.presses.map (·.t) = qs.map (fun q => ((q.t : ℤ) : ℚ))) :
    foldLog (timedStepLog stats) (st.tr, st.combo) qs = .ok (l, (st'.tr, st'.combo)) := by
  induction hp generalizing st l with
  | nil =>
    cases h
    rfl
  | @cons p q ps qs hpq _ ih =>
    unfold foldLog at h
    obtain ⟨⟨l1, st1⟩, h1, h⟩ := Py.bind_eq_ok.1 h
    obtain ⟨⟨l2, st2⟩, h2, h⟩ := Py.bind_eq_ok.1 h
    cases h
    obtain ⟨u, g1, g2, g3⟩ := seqStepLog_spec h1
    have hl1 : l1.presses = [u.press stats] := by rw [g2]; rfl
    simp only [Log.app_presses, hl1, List.map_cons,
      List.singleton_append, List.cons.injEq] at ht
    have e : (u.press stats).t = u.t := rfl
    have e1 : u.skill = p.skill := g1.2.1
    unfold foldLog
    rw [seqStep_timed h1 hpq (by rw [← ht.1, e, g3.time, e1])]
    simp only [Py.ok_bind]
    rw [ih h2 ht.2]
    rfl

/-- The heap hands out presses at different times in the order of the times. -/
theorem timedLoopLog_fold (stats : Stats) (o q : List TimedPress) (s : Trackers × ComboTracker)
    (hq : Heapq.IsHeap TimedPress.t q) (ho : o.Pairwise (fun a b => a.t < b.t)) (hp : q.Perm o) :
    timedLoopLog stats q.length s q = foldLog (timedStepLog stats) s o := by
  induction o generalizing q s with
  | nil =>
    rw [hp.eq_nil]
    rfl
  | cons p o ih =>
    have hne : q ≠ [] := by
      rintro rfl
      exact absurd hp.symm (by simp)
    have hlen : q.length = o.length + 1 := hp.length_eq
    have htot : Heapq.LtTotalOn TimedPress.pyLt q := by
      intro a ha b hb
      by_cases hab : a.t = b.t
      · have hnd : ((p :: o).map TimedPress.t).Nodup := by
          refine List.Pairwise.map _ (fun a b h => ?_) ho
          exact ne_of_lt h
        have : a = b := List.inj_on_of_nodup_map hnd (hp.mem_iff.1 ha) (hp.mem_iff.1 hb) hab
        subst this
        unfold TimedPress.pyLt
        rw [if_neg (by simp), if_neg (by simp)]
        by_cases hm : (!a.modifier.pyEq a.modifier) = true
        · rw [if_pos hm]
          exact ⟨_, rfl⟩
        · rw [if_neg hm, if_neg (by simp)]
          exact ⟨_, rfl⟩
      · unfold TimedPress.pyLt
        rw [if_pos hab]
        exact ⟨_, rfl⟩
    obtain ⟨x, q', h1⟩ := Heapq.heappop_total hne htot
    obtain ⟨k1, k2, k3⟩ := Heapq.heappop_spec timedPress_ltSound hq h1
    have hx : x = p := by
      have hx := hp.mem_iff.1 (k2.mem_iff.2 (List.mem_cons_self))
      rcases List.mem_cons.1 hx with h | h
      · exact h
      · have a1 := (List.pairwise_cons.1 ho).1 x h
        have a2 := k3 p (hp.mem_iff.2 List.mem_cons_self)
        exact absurd a1 (not_lt.2 a2)
    subst hx
    have hq' : q'.Perm o := (k2.symm.trans hp).cons_inv
    rw [hlen, timedLoopLog, if_pos (by omega), h1, foldLog]
    simp only [Py.ok_bind]
    cases timedStepLog stats s x with
    | error e => rfl
    | ok y =>
      simp only [Py.ok_bind]
      rw [← hq'.length_eq, ih q' y.2 k1 (List.pairwise_cons.1 ho).2 hq']

/-- The calls of `add` go through where the calls of `add_next` do, and give the same presses. -/
theorem calls_same (c : RotationBuilder) {calls : List AddCall} {A : Finset String}
    {ps : List SeqPress} {qs : List TimedPress} {a : RotationBuilder}
    (h : calls.foldlM AddCall.next { c with allTargets := A, qSequence := ps } = .ok a)
    (hp : List.Forall₂ SamePress ps qs) :
    ∃ A' ps' qs', a = { c with allTargets := A', qSequence := ps' } ∧
      calls.foldlM AddCall.run { c with allTargets := A, qTimed := qs } =
        .ok { c with allTargets := A', qTimed := qs' } ∧
      List.Forall₂ SamePress ps' qs' ∧
      qs'.map (fun q => ((q.t : ℤ) : ℚ)) = qs.map (fun q => ((q.t : ℤ) : ℚ)) ++ calls.map AddCall.ms := by
  induction calls generalizing A ps qs with
  | nil =>
    cases h
    exact ⟨A, ps, qs, rfl, rfl, hp, by simp⟩
  | cons k calls ih =>
    rw [Py.foldlM_cons] at h
    obtain ⟨a1, h1, h⟩ := Py.bind_eq_ok.1 h
    obtain ⟨skill, g1, rfl⟩ := addNext_ok h1
    obtain ⟨A', ps', qs', e1, e2, e3, e4⟩ := ih (qs := qs ++ [
      { t := pyInt (1000 * k.t)
        skill := skill
        modifier := k.modifier.getD
          (c.getDefaultSkillModifier skill (k.jobClass.getD c.stats.jobClass))
        jobClass := k.jobClass.getD c.stats.jobClass
        targets := splitTargets (k.targets.getD c.defaultTarget) }]) h
      (List.rel_append hp (.cons ⟨rfl, rfl, rfl, rfl⟩ .nil))
    refine ⟨A', ps', qs', e1, ?_, e3, ?_⟩
    · rw [Py.foldlM_cons, (run_add_ok { c with allTargets := A, qTimed := qs } _ _).2 ⟨skill, g1, rfl⟩]
      exact e2
    · rw [e4]
      simp [AddCall.ms]

theorem queueLog_timed {c : RotationBuilder} {A : Finset String} {ps : List SeqPress}
    {qs : List TimedPress} {l : Log} (hc : c.qTimed = []) (hc' : c.qSequence = [])
    (h : ({ c with allTargets := A, qSequence := ps } : RotationBuilder).start.queueLog = .ok l)
    (hp : List.Forall₂ SamePress ps qs)
    (ht : l.presses.map (·.t) = qs.map (fun q => ((q.t : ℤ) : ℚ)))
    (hs : qs.Pairwise (fun a b => a.t < b.t)) :
    ({ c with allTargets := A, qTimed := qs } : RotationBuilder).start.queueLog = .ok l := by
  set a : RotationBuilder := { c with allTargets := A, qSequence := ps } with ha
  set b : RotationBuilder := { c with allTargets := A, qTimed := qs } with hb
  obtain ⟨a1, a2, _, _, _, a6, a7, _, _, a10, a11, _⟩ := start_fields a
  obtain ⟨b1, b2, _, _, _, b6, b7, _, _, b10, b11, _⟩ := start_fields b
  have hi : b.start.initTrackers = a.start.initTrackers := by
    unfold initTrackers
    rw [a1, a2, a7, b1, b2, b7]
  unfold queueLog seqLog timedLog at h ⊢
  rw [a1, a6, a10, a11] at h
  rw [b1, b6, b10, b11, hi]
  have e1 : a.qTimed = [] := hc
  have e2 : b.qSequence = [] := hc'
  have e3 : a.qSequence = ps := rfl
  have e4 : b.qTimed = qs := rfl
  rw [e1, e3] at h
  rw [e2, e4, sortBy_of_sorted _ (hs.imp le_of_lt)]
  cases htc : a.start.initTrackers with
  | error e =>
    rw [htc] at h
    cases h
  | ok tc =>
    rw [htc] at h
    simp only [Py.ok_bind] at h ⊢
    obtain ⟨l1, h1, h⟩ := Py.bind_eq_ok.1 h
    obtain ⟨⟨l2, s2⟩, h2, h1⟩ := Py.bind_eq_ok.1 h1
    cases h1
    have e5 : l = l2 := by
      have : (Except.ok (l2.app {}) : Py Log) = .ok l := h
      rw [Log.app_nil] at this
      exact (Except.ok.inj this).symm
    subst e5
    have key := seqFold_timed h2 hp ht
    rw [timedLoopLog_fold _ qs qs tc (Heapq.isHeap_of_sorted (hs.imp le_of_lt)) hs (.refl _)]
    have key' : foldLog (timedStepLog b.stats) tc qs = .ok (l, (s2.tr, s2.combo)) := key
    rw [key']
    rfl

/-- The presses of a sequence are in order, if nothing has a negative animation lock. -/
theorem earliest_sorted {stats : Stats} {lib : SkillLibrary} (hl : NonnegLocks lib)
    {ps : List SeqPress} {slots : List SeqSlot} {free : ℚ} {ready : Option ℚ}
    (h1 : List.Forall₂ (SlotOf stats) ps slots)
    (hi : ∀ p ∈ ps, ∃ name, lib.getSkill name p.jobClass = .ok p.skill)
    (h2 : Earliest free ready slots) :
    (∀ s ∈ slots, free ≤ s.t) ∧ slots.Pairwise (fun a b => a.t ≤ b.t) := by
  induction h1 generalizing free ready with
  | nil => exact ⟨by simp, .nil⟩
  | @cons p s ps slots hs _ ih =>
    obtain ⟨k1, k2⟩ := ih (fun p hp => hi p (List.mem_cons_of_mem _ hp)) h2.2
    obtain ⟨name, hn⟩ := hi p List.mem_cons_self
    have hlock := hl name _ _ (by rw [hn, ← hs.1]) _ _ hs.2.2.1
    have hbusy := busy_ge hs
    have hfree := h2.1.1.1
    refine ⟨fun x hx => ?_, List.Pairwise.cons (fun x hx => ?_) k2⟩
    · rcases List.mem_cons.1 hx with rfl | hx
      · exact hfree
      · have := k1 x hx
        linarith
    · have := k1 x hx
      linarith

/-- The presses of a rotation that is a sequence: those reported are all moved by one amount, and the first is at
the start of the fight. -/
theorem raw_presses {a a' : RotationBuilder} {fuel : ℕ} (hb : Built a) (hl : NonnegLocks a.lib)
    (hq : a.qTimed = []) (r : Run fuel a a') :
    r.log.presses.Pairwise (fun x y => x.t ≤ y.t) ∧ r.log.presses.length = a.qSequence.length ∧
    (∀ p ∈ r.log.presses.head?, p.t = a.fightStart.getD 0) ∧
    ∃ δ, a'.getButtonPressTiming = r.log.presses.map (fun p => { p with t := p.t - δ }) := by
  obtain ⟨su, tu, order, h1, h2, h3, h4, -, ⟨st, st', h6, h7, h8⟩, -⟩ := run_uses (built_inv hb) r
  obtain ⟨slots, g1, g2, g3⟩ := seqRun_slots h2 h6
  have hsort := (earliest_sorted hl g1 (fun p hp => ((built_inv hb).seq p hp).2) g2).2
  obtain ⟨δ, -, -, -, d4, -⟩ := r.spec
  have ho : order = [] := by
    rw [hq] at h4
    exact h4.eq_nil
  subst ho
  cases h3
  have hp : r.log.presses = su.map (Use.press a.stats) := by rw [h1, logsOf_presses, List.append_nil]
  have hlog : r.log.presses.map (·.t) = slots.map (·.t) := by
    rw [hp, g3, List.map_map]
    rfl
  have hps : r.log.presses.Pairwise (fun x y => x.t ≤ y.t) := by
    have : (r.log.presses.map (·.t)).Pairwise (· ≤ ·) := by
      rw [hlog]
      exact List.Pairwise.map _ (fun _ _ h => h) hsort
    exact List.pairwise_map.1 this
  refine ⟨hps, by rw [hp, List.length_map, h2.length_eq], ?_, δ, ?_⟩
  · intro p hp
    cases hx : r.log.presses with
    | nil =>
      rw [hx] at hp
      cases hp
    | cons x xs =>
      rw [hx] at hp hlog
      cases hp
      cases slots with
      | nil => cases hlog
      | cons s slots =>
        rw [List.map_cons, List.map_cons, List.cons.injEq] at hlog
        rw [hlog.1, ← h7]
        refine le_antisymm (g2.1.2 ⟨le_rfl, fun _ r hr => ?_⟩) g2.1.1.1
        rw [h8] at hr
        cases hr
  · have : (r.log.presses.map (fun p => ({ p with t := p.t - δ } : Press))).Pairwise
        (fun x y => x.t ≤ y.t) := List.Pairwise.map _ (fun x y h => sub_le_sub_right h δ) hps
    unfold getButtonPressTiming
    rw [d4, sortBy_of_sorted _ this, sortBy_of_sorted _ this]

/-- The same skills at the times of the presses of a sequence. -/
theorem replay_raw {rb a a' : RotationBuilder} {calls : List AddCall} {fuel : ℕ} (c1 : rb.qTimed = [])
    (c2 : rb.qSequence = []) (c3 : rb.enableAutos = false) (ha : calls.foldlM AddCall.next rb = .ok a)
    (r : Run fuel a a') (ht : a.getSkillTiming fuel = .ok a')
    (hps : r.log.presses.Pairwise (fun x y => x.t ≤ y.t))
    (hm : r.log.presses.map (·.t) = calls.map AddCall.ms) (hd : (calls.map AddCall.ms).Nodup) :
    ∃ b b', calls.foldlM AddCall.run rb = .ok b ∧ b.getSkillTiming fuel = .ok b' ∧
      b'.events = a'.events ∧ b'.getButtonPressTiming = a'.getButtonPressTiming := by
  obtain ⟨A, ps, qs, rfl, e2, e3, e4⟩ := calls_same rb (A := rb.allTargets) (ps := rb.qSequence)
    (qs := rb.qTimed) ha (by rw [c1, c2]; exact .nil)
  rw [c1, List.map_nil, List.nil_append] at e4
  have hraw := hm.trans e4.symm
  have hqs : qs.Pairwise (fun a b => a.t < b.t) := by
    have k1 : (qs.map (fun q => ((q.t : ℤ) : ℚ))).Pairwise (· ≤ ·) := by
      rw [← hraw]
      exact List.Pairwise.map _ (fun _ _ h => h) hps
    have k2 : (qs.map (fun q => ((q.t : ℤ) : ℚ))).Pairwise (· ≠ ·) := by
      rw [e4]
      exact hd
    have k3 := List.pairwise_map.1 (k1.and k2)
    exact k3.imp (fun h => by exact_mod_cast lt_of_le_of_ne h.1 h.2)
  have hq := queueLog_timed c1 c2 r.queue e3 hraw hqs
  have hobs := observed_congr (fuel := fuel) (r.queue.trans hq.symm) rfl rfl rfl
    (by unfold start processDowntimeWindows; cases rb.downtime <;> rfl) rfl c3 c3
  rw [ht] at hobs
  cases hb : ({ rb with allTargets := A, qTimed := qs } : RotationBuilder).getSkillTiming fuel with
  | error e =>
    rw [hb] at hobs
    cases hobs
  | ok b' =>
    rw [hb] at hobs
    have he : (a'.events, a'.presses) = (b'.events, b'.presses) := Except.ok.inj hobs
    refine ⟨_, b', e2, hb, (Prod.mk.inj he).1.symm, ?_⟩
    unfold getButtonPressTiming
    rw [(Prod.mk.inj he).2]

theorem built_next {stats : Stats} {lib : SkillLibrary} {snapDots fightStart : Option ℚ}
    {autos trailing : Bool} {downtime : RawDowntime} {target : String} {rb a : RotationBuilder}
    {calls : List AddCall}
    (hi : init stats lib snapDots autos trailing fightStart downtime target = .ok rb)
    (ha : calls.foldlM AddCall.next rb = .ok a) :
    Built a ∧ rb.qTimed = [] ∧ rb.qSequence = [] ∧ rb.enableAutos = autos ∧ rb.fightStart = fightStart ∧
      rb.lib = lib ∧ a.qTimed = [] ∧ a.fightStart = fightStart ∧ a.lib = lib ∧
      a.qSequence.length = calls.length := by
  have hb : Built a := by
    refine ⟨stats, lib, snapDots, autos, trailing, fightStart, downtime, target, rb,
      calls.map (fun k => .addNext k.skillName k.modifier k.jobClass 1 k.targets), hi, ?_⟩
    rw [List.foldlM_map]
    exact ha
  have hc : rb.qTimed = [] ∧ rb.qSequence = [] ∧ rb.enableAutos = autos ∧ rb.fightStart = fightStart ∧
      rb.lib = lib := by
    obtain ⟨priority, -, hrb⟩ := Py.bind_eq_ok.1 hi
    cases hrb
    exact ⟨rfl, rfl, rfl, rfl, rfl⟩
  obtain ⟨c1, c2, c3, c4, c5⟩ := hc
  obtain ⟨A, ps, qs, rfl, e2, e3, e4⟩ := calls_same rb (A := rb.allTargets) (ps := rb.qSequence)
    (qs := rb.qTimed) ha (by rw [c1, c2]; exact .nil)
  refine ⟨hb, c1, c2, c3, c4, c5, c1, c4, c5, ?_⟩
  have := congrArg List.length e4
  rw [c1] at this
  simp only [List.length_map, List.length_append, List.map_nil, List.length_nil, zero_add] at this
  rw [← this]
  exact e3.length_eq

/-- The presses of a rotation that can be played are at whole milliseconds. -/
theorem seqFold_whole {P : SkillCore → Prop} {gauges : List String} {stats : Stats} (hs : SpeedOk stats)
    (hw : WholeIn P) {ps : List SeqPress} (hp : ∀ p ∈ ps, Fine P gauges p.skill p.modifier p.targets)
    {st st' : SeqRest} (h : SafeSeq P gauges st) {l : Log}
    (hf : foldLog (seqStepLog stats) st ps = .ok (l, st')) : ∀ p ∈ l.presses, Whole p.t := by
  induction ps generalizing st l with
  | nil =>
    cases hf
    simp
  | cons p ps ih =>
    unfold foldLog at hf
    obtain ⟨⟨l1, st1⟩, h1, hf⟩ := Py.bind_eq_ok.1 hf
    obtain ⟨⟨l2, st2⟩, h2, hf⟩ := Py.bind_eq_ok.1 hf
    cases hf
    obtain ⟨l1', st1', k1, k2, -⟩ := seqStepLog_total hs hw (hp p List.mem_cons_self) h
    rw [h1] at k1
    cases k1
    obtain ⟨u, g1, g2, g3⟩ := seqStepLog_spec h1
    have hl1 : l1.presses = [u.press stats] := by rw [g2]; rfl
    intro x hx
    rw [Log.app_presses, hl1, List.singleton_append] at hx
    rcases List.mem_cons.1 hx with rfl | hx
    · change Whole u.t
      rw [g3.time]
      unfold pressTime
      split_ifs
      · split
        · exact h.2.1
        · next x hx => exact h.2.1.max (h.2.2 x hx)
      · exact h.2.1
    · exact ih (fun q hq => hp q (List.mem_cons_of_mem _ hq)) k2 h2 x hx

theorem raw_whole {a a' : RotationBuilder} {fuel : ℕ} (hb : Built a) (hp : PlayableRotation a)
    (hq : a.qTimed = []) (r : Run fuel a a') : ∀ p ∈ r.log.presses, Whole p.t := by
  obtain ⟨gauges, h0, -⟩ := sound_of hb hp
  have h := sound_start h0
  obtain ⟨tc, h1, h2⟩ := initTrackers_total h
  have hr := r.queue
  unfold queueLog at hr
  obtain ⟨l, h3, hr⟩ := Py.bind_eq_ok.1 hr
  obtain ⟨l', h4, hr⟩ := Py.bind_eq_ok.1 hr
  have hl' : l' = {} := by
    unfold timedLog at h4
    rw [h1, (start_fields a).2.2.2.2.2.2.2.2.2.1, hq] at h4
    cases h4
    rfl
  have hl : r.log = l := by
    rw [hl', Log.app_nil] at hr
    exact (Except.ok.inj hr).symm
  unfold seqLog at h3
  rw [h1, Py.ok_bind] at h3
  obtain ⟨⟨l2, st2⟩, h5, h3⟩ := Py.bind_eq_ok.1 h3
  cases h3
  rw [hl]
  refine seqFold_whole h.speed h.whole h.seq ⟨h2, ?_, fun x hx => by cases hx⟩ h5
  cases hf : a.start.fightStart with
  | none => exact .zero
  | some x => exact h.start x hf

/-- Calls at given whole times. -/
theorem exists_calls {calls : List AddCall} {ps : List Press} (hw : ∀ p ∈ ps, Whole p.t)
    (hl : ps.length = calls.length) :
    ∃ calls', List.Forall₂ (fun c c' : AddCall => c' = { c with t := c'.t }) calls calls' ∧
      calls'.map AddCall.ms = ps.map (·.t) := by
  induction calls generalizing ps with
  | nil =>
    cases ps with
    | nil => exact ⟨[], .nil, rfl⟩
    | cons p ps => cases hl
  | cons c calls ih =>
    cases ps with
    | nil => cases hl
    | cons p ps =>
      obtain ⟨calls', h1, h2⟩ := ih (fun q hq => hw q (List.mem_cons_of_mem _ hq)) (by simpa using hl)
      obtain ⟨z, hz⟩ := hw p List.mem_cons_self
      refine ⟨{ c with t := p.t / 1000 } :: calls', .cons rfl h1, ?_⟩
      rw [List.map_cons, List.map_cons, h2, List.cons.injEq]
      refine ⟨?_, rfl⟩
      unfold AddCall.ms
      simp only
      rw [show 1000 * (p.t / 1000) = ((z : ℤ) : ℚ) by rw [hz]; ring, hz]
      unfold pyInt
      split_ifs <;> simp

theorem next_congr {calls calls' : List AddCall} {rb : RotationBuilder}
    (h : List.Forall₂ (fun c c' : AddCall => c' = { c with t := c'.t }) calls calls') :
    calls.foldlM AddCall.next rb = calls'.foldlM AddCall.next rb := by
  induction h generalizing rb with
  | nil => rfl
  | @cons c c' cs cs' hc _ ih =>
    rw [Py.foldlM_cons, Py.foldlM_cons]
    have : AddCall.next rb c' = AddCall.next rb c := by rw [hc]; rfl
    rw [this]
    cases AddCall.next rb c with
    | error e => rfl
    | ok x => exact ih

theorem next_autos {calls : List AddCall} {rb a : RotationBuilder} (h : calls.foldlM AddCall.next rb = .ok a) :
    a.enableAutos = rb.enableAutos := by
  induction calls generalizing rb with
  | nil =>
    cases h
    rfl
  | cons c calls ih =>
    rw [Py.foldlM_cons] at h
    obtain ⟨x, h1, h⟩ := Py.bind_eq_ok.1 h
    obtain ⟨skill, -, rfl⟩ := addNext_ok h1
    exact (ih h).trans rfl

end RotationBuilder

end Ama
