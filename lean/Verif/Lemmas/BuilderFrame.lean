import Verif.Lemmas.BuilderInv

/-!
# Which attributes the steps of `get_skill_timing` read
-/

namespace Ama

open Spec

namespace RotationBuilder

variable {rb₁ rb₂ : RotationBuilder}

theorem targetKept_congr (h : rb₁.downtime = rb₂.downtime) (e : Event) (t : String) :
    rb₁.targetKept e t = rb₂.targetKept e t := by
  unfold targetKept inDowntime windowsFor
  rw [h]

theorem validTargets_congr (h : rb₁.downtime = rb₂.downtime) (e : Event) (ts : List String) :
    rb₁.validTargets e ts = rb₂.validTargets e ts := by
  induction ts with
  | nil => rfl
  | cons t ts ih =>
    unfold validTargets
    rw [ih, targetKept_congr h]

theorem keepOne_congr (h : rb₁.downtime = rb₂.downtime) : rb₁.keepOne = rb₂.keepOne := by
  funext e
  unfold keepOne
  rw [validTargets_congr h]

theorem removeLoop_congr (h : rb₁.downtime = rb₂.downtime) (n : ℕ) (evs res : Events) :
    rb₁.removeLoop n evs res = rb₂.removeLoop n evs res := by
  induction n generalizing evs res with
  | zero => rfl
  | succ n ih =>
    unfold removeLoop
    simp only [validTargets_congr h, ih]

/-- What `finish` computes. -/
def finishOut (rb : RotationBuilder) : Py (Events × List Press) := do
  let x ← (if rb.fightStart.isNone then do
      match ← rb.events.getFirstDamageTime with
      | none => return (rb.events, rb.presses)
      | some first =>
        let events ← shiftLoop first rb.events.q.length rb.events {}
        return (events, rb.presses.map (fun p => { p with t := p.t - first }))
    else (.ok (rb.events, rb.presses) : Py (Events × List Press)))
  let events ← rb.removeLoop x.1.q.length x.1 {}
  return (events, sortBy (·.t) x.2)

theorem finish_eq (rb : RotationBuilder) :
    finish rb = (rb.finishOut >>= fun x => .ok (rb.withTimeline x.1 x.2)) := by
  have key : ∀ (r : RotationBuilder), r.downtime = rb.downtime →
      r = rb.withTimeline r.events r.presses →
      (r.removeDamageDuringDowntime >>= fun rb =>
        (pure { rb with presses := sortBy (·.t) rb.presses } : Py RotationBuilder)) =
      ((rb.removeLoop r.events.q.length r.events {} >>= fun evs =>
        (.ok (evs, sortBy (·.t) r.presses) : Py (Events × List Press))) >>=
          fun x => .ok (rb.withTimeline x.1 x.2)) := by
    intro r h1 h2
    unfold removeDamageDuringDowntime
    rw [removeLoop_congr h1]
    cases rb.removeLoop r.events.q.length r.events {} with
    | error e => rfl
    | ok evs =>
      simp only [Py.ok_bind, Py.pure_eq]
      rw [h2]
      rfl
  unfold finish finishOut shiftIfNeeded
  by_cases hf : rb.fightStart.isNone = true
  · simp only [hf, if_true]
    unfold shiftTimelines
    cases rb.events.getFirstDamageTime with
    | error e => rfl
    | ok first =>
      cases first with
      | none =>
        simp only [Py.ok_bind, Py.pure_eq]
        exact key rb rfl rfl
      | some first =>
        simp only [Py.ok_bind, Py.pure_eq]
        cases shiftLoop first rb.events.q.length rb.events {} with
        | error e => rfl
        | ok evs =>
          simp only [Py.ok_bind]
          exact key (rb.withTimeline evs (rb.presses.map (fun p => { p with t := p.t - first }))) rfl rfl
  · simp only [hf, if_false, Bool.false_eq_true, Py.ok_bind]
    exact key rb rfl rfl

theorem finishOut_congr (h1 : rb₁.downtime = rb₂.downtime) (h2 : rb₁.fightStart = rb₂.fightStart)
    (h3 : rb₁.events = rb₂.events) (h4 : rb₁.presses = rb₂.presses) :
    rb₁.finishOut = rb₂.finishOut := by
  unfold finishOut
  rw [h2, h3, h4]
  simp only [removeLoop_congr h1]

theorem observed_finish (rb : RotationBuilder) : observed (finish rb) = rb.finishOut := by
  rw [finish_eq]
  unfold observed
  cases rb.finishOut <;> rfl

theorem observed_congr {fuel : ℕ} (h1 : rb₁.start.queueLog = rb₂.start.queueLog)
    (h2 : rb₁.snapDots = rb₂.snapDots) (h3 : rb₁.qDot = rb₂.qDot)
    (h4 : rb₁.ignoreTrailingDots = rb₂.ignoreTrailingDots)
    (h5 : rb₁.start.downtime = rb₂.start.downtime) (h6 : rb₁.fightStart = rb₂.fightStart)
    (h7 : rb₁.enableAutos = false) (h8 : rb₂.enableAutos = false) :
    observed (rb₁.getSkillTiming fuel) = observed (rb₂.getSkillTiming fuel) := by
  rw [getSkillTiming_eq, getSkillTiming_eq, h1, h2, h3, h7, h8]
  obtain ⟨_, _, _, _, a5, a6, _, _, _, _, _, _, a13, a14, _⟩ := start_fields rb₁
  obtain ⟨_, _, _, _, b5, b6, _, _, _, _, _, _, b13, b14, _⟩ := start_fields rb₂
  cases rb₂.start.queueLog with
  | error e => rfl
  | ok l =>
    simp only [Py.ok_bind, Bool.false_eq_true, if_false, Py.pure_eq]
    have hev : (rb₁.start.apply l).events = (rb₂.start.apply l).events := by
      unfold apply
      simp only [a14, b14]
    have hl : (rb₁.start.apply l).lastFor = (rb₂.start.apply l).lastFor := by
      unfold lastFor
      rw [hev]
      have e1 : (rb₁.start.apply l).ignoreTrailingDots = rb₁.ignoreTrailingDots := a5
      have e2 : (rb₂.start.apply l).ignoreTrailingDots = rb₂.ignoreTrailingDots := b5
      rw [e1, e2, h4]
    rw [hl]
    cases allDotAdds rb₂.snapDots (rb₂.start.apply l).lastFor (addDots rb₂.qDot l.dots) with
    | error e => rfl
    | ok as =>
      simp only [Py.ok_bind]
      rw [observed_finish, observed_finish]
      refine finishOut_congr h5 ?_ ?_ ?_
      · change rb₁.start.fightStart = rb₂.start.fightStart
        rw [a6, b6, h6]
      · change as.foldl Events.push (rb₁.start.apply l).events =
          as.foldl Events.push (rb₂.start.apply l).events
        rw [hev]
      · change rb₁.start.presses ++ l.presses = rb₂.start.presses ++ l.presses
        rw [a13, b13]

/-! ## The order of the timed queue -/

/-- The builder with another timed queue. -/
def withTimed (rb : RotationBuilder) (q : List TimedPress) : RotationBuilder :=
  { rb with qTimed := q }

theorem timedLog_perm {rb : RotationBuilder} {q : List TimedPress} (hp : q.Perm rb.qTimed)
    (hd : (rb.qTimed.map (·.t)).Nodup) : (rb.withTimed q).timedLog = rb.timedLog := by
  unfold timedLog
  have h1 : (rb.withTimed q).initTrackers = rb.initTrackers := rfl
  have h2 : sortBy (fun p : TimedPress => p.t) q = sortBy (fun p : TimedPress => p.t) rb.qTimed :=
    (sortBy_eq_of_perm _ hp.symm hd).symm
  have h3 : (rb.withTimed q).stats = rb.stats := rfl
  have h4 : (rb.withTimed q).qTimed = q := rfl
  simp only [h1, h2, h3, h4]

theorem observed_perm {fuel : ℕ} {rb : RotationBuilder} {q : List TimedPress}
    (hp : q.Perm rb.qTimed) (hd : (rb.qTimed.map (·.t)).Nodup) (ha : rb.enableAutos = false) :
    observed ((rb.withTimed q).getSkillTiming fuel) = observed (rb.getSkillTiming fuel) := by
  have hs : (rb.withTimed q).start = rb.start.withTimed q := by
    unfold start processDowntimeWindows withTimed
    cases h : rb.downtime <;> simp only [h]
  obtain ⟨_, _, _, _, _, _, _, _, _, e10, _⟩ := start_fields rb
  refine observed_congr ?_ rfl rfl rfl ?_ rfl ha ha
  · rw [hs]
    unfold queueLog
    rw [timedLog_perm (rb := rb.start) (by rw [e10]; exact hp) (by rw [e10]; exact hd)]
    rfl
  · rw [hs]
    rfl

end RotationBuilder

end Ama
