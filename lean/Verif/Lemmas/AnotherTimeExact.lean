import Verif.Lemmas.AnotherTime

/-!
# The exact timeline of a rotation at another time, with auto-attacks
-/

namespace Ama

open Spec

namespace RotationBuilder

open Reuse (Rel)

variable {k : ℤ} {C : Dict String JobResourceSettings}

/-- The priority of this time moves along. -/
def PrioOk (k : ℤ) (t : ℚ) : Prop := Micro t ∨ 0 ≤ t ∧ 0 ≤ t + k

/-! ## Queues -/

theorem prio_int (k : ℤ) : Utils.transformTimeToPrio (k : ℚ) = 1000 * k := by
  have := prio_later (t := 0) (k := k) (.inl ⟨0, by simp⟩)
  rw [zero_add] at this
  rw [this]
  unfold Utils.transformTimeToPrio pyInt
  simp

theorem event_lt (k : ℤ) (a b : Event) :
    Event.pyLt (laterEvent k a) (laterEvent k b) = Event.pyLt a b := by
  unfold Event.pyLt laterEvent
  simp only [add_lt_add_iff_right, add_left_inj]

theorem mkEvent_later {a : NewEvent} (h : PrioOk k a.primary) (n : ℕ) :
    Events.mkEvent (newLater k a) n = laterEvent k (Events.mkEvent a n) := by
  have hc : some (newLater k a).primary = (newLater k a).secondary ↔ some a.primary = a.secondary := by
    unfold newLater
    cases a.secondary with
    | none => simp
    | some s => simp
  unfold Events.mkEvent laterEvent
  simp only [hc]
  have hp : (newLater k a).priority = a.priority + Utils.transformTimeToPrio (k : ℚ) := by
    unfold newLater
    simp only
    rw [prio_later h, prio_int]
    ring
  rw [hp]
  split <;> simp [newLater]

theorem push_of_mk {a a' : NewEvent} (h : ∀ n, Events.mkEvent a' n = laterEvent k (Events.mkEvent a n))
    (hid : a'.eventId = a.eventId) (evs : Events) :
    (laterTimeline k evs).push a' = laterTimeline k (evs.push a) := by
  have h1 := Events.add_eq_push (laterTimeline k evs) a'
  have h2 := Events.add_eq_push evs a
  unfold Events.add at h1 h2
  simp only [hid, h, show (laterTimeline k evs).eventId = evs.eventId from rfl,
    show (laterTimeline k evs).q = evs.q.map (laterEvent k) from rfl] at h1 h2
  rw [Shift.heappush_map (lt := Event.pyLt) (event_lt k)] at h1
  obtain ⟨q, hq, h2⟩ := Py.bind_eq_ok.1 h2
  rw [hq] at h1
  rw [← Except.ok.inj h1, ← Except.ok.inj h2]
  rfl

theorem push_later {a : NewEvent} (h : PrioOk k a.primary) (evs : Events) :
    (laterTimeline k evs).push (newLater k a) = laterTimeline k (evs.push a) :=
  push_of_mk (mkEvent_later h) rfl evs

theorem pushAll_later {as : List NewEvent} (h : ∀ a ∈ as, PrioOk k a.primary) (evs : Events) :
    (as.map (newLater k)).foldl Events.push (laterTimeline k evs) =
      laterTimeline k (as.foldl Events.push evs) := by
  induction as generalizing evs with
  | nil => rfl
  | cons a as ih =>
    rw [List.map_cons, List.foldl_cons, List.foldl_cons, push_later (h a (by simp))]
    exact ih (fun a ha => h a (by simp [ha])) _

theorem applicationTime_later (e : Event) :
    Events.applicationTime (laterEvent k e) = Events.applicationTime e + k := by
  unfold Events.applicationTime laterEvent
  cases e.secondary <;> rfl

theorem firstDamage_later (evs : Events) :
    (laterTimeline k evs).getFirstDamageTime = evs.getFirstDamageTime.map (Option.map (· + (k : ℚ))) := by
  have : ∀ (l : List Event) (x : Option ℚ), (l.map (laterEvent k)).foldlM Events.firstDamageStep
      (x.map (· + (k : ℚ))) = (l.foldlM Events.firstDamageStep x).map (Option.map (· + (k : ℚ))) := by
    intro l
    induction l with
    | nil => intro x; rfl
    | cons e l ih =>
      intro x
      rw [List.map_cons, Py.foldlM_cons, Py.foldlM_cons]
      have h1 : Events.firstDamageStep (x.map (· + (k : ℚ))) (laterEvent k e) =
          (Events.firstDamageStep x e).map (Option.map (· + (k : ℚ))) := by
        unfold Events.firstDamageStep
        rw [applicationTime_later, show (laterEvent k e).skill = e.skill from rfl,
          show (laterEvent k e).modifier = e.modifier from rfl]
        cases e.skill.getDamageSpec e.modifier with
        | error err => rfl
        | ok s =>
          cases s with
          | none => rfl
          | some s =>
            cases x with
            | none => rfl
            | some f =>
              show Except.ok (some _) = Except.ok (some _)
              rw [min_add_add_right]
      rw [h1]
      cases Events.firstDamageStep x e with
      | error err => rfl
      | ok y => exact ih y
  exact this evs.q none

theorem lastEvent_exact (evs : Events) :
    (laterTimeline k evs).getLastEventTime = evs.getLastEventTime.map (· + (k : ℚ)) := by
  have : ∀ (l : List Event) (x : Option ℚ), (l.map (laterEvent k)).foldl Events.lastEventStep
      (x.map (· + (k : ℚ))) = (l.foldl Events.lastEventStep x).map (· + (k : ℚ)) := by
    intro l
    induction l with
    | nil => intro x; rfl
    | cons e l ih =>
      intro x
      rw [List.map_cons, List.foldl_cons, List.foldl_cons, ← ih]
      congr 1
      unfold Events.lastEventStep
      rw [applicationTime_later]
      cases x with
      | none => rfl
      | some f =>
        show some _ = some _
        rw [max_add_add_right]
  exact this evs.q none

theorem getNext_later (evs : Events) :
    (laterTimeline k evs).getNext =
      evs.getNext.map (fun r => (laterEvent k r.1, laterTimeline k r.2)) := by
  unfold Events.getNext
  rw [show (laterTimeline k evs).q = evs.q.map (laterEvent k) from rfl,
    Shift.heappop_map (lt := Event.pyLt) (event_lt k)]
  cases Heapq.heappop Event.pyLt evs.q <;> rfl

theorem isEmpty_later (evs : Events) : (laterTimeline k evs).isEmpty = evs.isEmpty := by
  unfold Events.isEmpty laterTimeline
  simp

/-! ## Auto-attacks -/

def stampLater (δ : ℚ) (x : ℚ × String) : ℚ × String := (x.1 + δ, x.2)

def speedLater (δ : ℚ) (x : ℚ × Skill) : ℚ × Skill := (x.1 + δ, x.2)

def periodLater (δ : ℚ) (x : ℚ × WithTop ℚ) : ℚ × WithTop ℚ := (x.1 + δ, x.2 + (δ : WithTop ℚ))

theorem speedTimeline_later {a b : RotationBuilder} (h : b.events = laterTimeline k a.events) :
    Rel (Shift.Img (List.map (speedLater k))) a.speedTimeline b.speedTimeline := by
  unfold speedTimeline
  have hq : b.events.getQ = a.events.getQ.map (laterEvent k) := by
    unfold Events.getQ
    rw [h, show (laterTimeline k a.events).q = a.events.q.map (laterEvent k) from rfl, sortBy_map]
    congr 1
    refine sortBy_congr _ _ fun x _ y _ => ?_
    unfold Event.key laterEvent
    simp only [Prod.Lex.toLex_le_toLex, add_lt_add_iff_right, add_left_inj]
  rw [hq]
  have hf : ∀ (l : List Event) (r : List (ℚ × Skill)), Rel (Shift.Img (List.map (speedLater k)))
      (l.foldlM speedStep r) ((l.map (laterEvent k)).foldlM speedStep (r.map (speedLater k))) := by
    intro l
    induction l with
    | nil => intro r; rfl
    | cons e l ih =>
      intro r
      rw [List.map_cons, Py.foldlM_cons, Py.foldlM_cons]
      refine Rel.bind (R := Shift.Img (List.map (speedLater k))) ?_ ?_
      · unfold speedStep
        rw [applicationTime_later, show (laterEvent k e).skill = e.skill from rfl,
          show (laterEvent k e).modifier = e.modifier from rfl]
        refine (Rel.refl (R := Eq) (fun _ => rfl) _).bind ?_
        rintro x _ rfl
        refine (Rel.refl (R := Eq) (fun _ => rfl) _).bind ?_
        rintro y _ rfl
        split
        · rfl
        · show _ = List.map _ _
          rw [List.map_append]
          rfl
      · rintro x _ rfl
        exact ih x
  refine (hf _ []).bind ?_
  rintro x _ rfl
  show sortBy _ _ = List.map _ (sortBy _ _)
  rw [sortBy_map]
  congr 1
  refine sortBy_congr _ _ fun p _ q _ => ?_
  exact add_le_add_iff_right (k : ℚ)

theorem applicable_later {a b : RotationBuilder} (ht : b.initTrackers = a.initTrackers)
    (hl : Lasting a.lib a.stats.jobClass) (timeline : List (ℚ × Skill)) (t : ℚ) (skill : Skill)
    (m : SkillModifier) (targets : List String) :
    Rel Eq (a.applicableStatusEffects timeline t skill m targets)
      (b.applicableStatusEffects (timeline.map (speedLater k)) (t + k) skill m targets) := by
  unfold applicableStatusEffects
  rw [ht]
  have hf : (timeline.map (speedLater k)).filter (fun x => decide (x.1 ≤ t + k)) =
      (timeline.filter (fun x => decide (x.1 ≤ t))).map (speedLater k) := by
    rw [List.filter_map]
    congr 1
    refine List.filter_congr fun x _ => ?_
    simp only [Function.comp, speedLater, add_le_add_iff_right]
  simp only [hf]
  generalize timeline.filter (fun x => decide (x.1 ≤ t)) = l
  cases hi : a.initTrackers with
  | error e => rfl
  | ok tc =>
    obtain ⟨C, hC, h3, -⟩ := initTrackers_later (δ := k) hl hi
    simp only [Py.ok_bind]
    have hg : ∀ (l : List (ℚ × Skill)) (x y : Trackers), TrRel k C x y →
        Rel (TrRel k C) (l.foldlM (applicableStep m targets) x)
          ((l.map (speedLater k)).foldlM (applicableStep m targets) y) := by
      intro l
      induction l with
      | nil => intro x y h; exact h
      | cons s l ih =>
        intro x y h
        rw [List.map_cons, Py.foldlM_cons, Py.foldlM_cons]
        refine Rel.bind (R := TrRel k C) ?_ (fun x y h => ih x y h)
        unfold applicableStep
        simp only [speedLater]
        rw [h.1, Shift.se_expire]
        refine (Shift.se_add _ _ _ _ _).bind ?_
        rintro se _ rfl
        refine (Shift.addResource_shift (.inl hC) h.2 _ _).bind ?_
        intro r r' hr
        exact ⟨rfl, hr⟩
    refine (hg l _ _ h3).bind ?_
    rintro x y ⟨h4, h5⟩
    rw [h4, Shift.se_expire, List.map_map]
    have hs : (l.map ((fun x : ℚ × Skill => x.2) ∘ speedLater k)) = l.map (fun x => x.2) := rfl
    rw [hs]
    refine (Shift.se_compileBuffs _ _ _).bind ?_
    rintro ⟨⟨b1, b2⟩, b3⟩ _ rfl
    refine (Shift.se_compileDebuffs _ _ _ _).bind ?_
    rintro ⟨⟨d1, d2⟩, d3⟩ _ rfl
    refine (Shift.compile_shift h5 _ _).bind ?_
    rintro _ _ _
    rfl

def chan (δ : ℚ) (tr : ChannelingTracker) : ChannelingTracker :=
  { tr with
    windows := tr.windows.map (periodLater δ)
    channel := tr.channel.map (fun c => { c with start := c.start + δ }) }

theorem endChanneling_later (δ : ℚ) (tr : ChannelingTracker) (c : Channel) (t : ℚ) :
    (chan δ tr).endChannelingAt { c with start := c.start + δ } (t + δ) =
      chan δ (tr.endChannelingAt c t) := by
  unfold ChannelingTracker.endChannelingAt chan
  simp only [List.map_append, List.map_cons, List.map_nil, Option.map_none]
  congr 3
  unfold periodLater
  simp only
  rw [Shift.coe_shift, WithTop.coe_add, min_add_add_right]

theorem process_later (δ : ℚ) (tr : ChannelingTracker) (t : ℚ) (skill : SkillCore) (m : SkillModifier) :
    Rel (Shift.Img (chan δ)) (tr.process t skill m) ((chan δ tr).process (t + δ) skill m) := by
  unfold ChannelingTracker.process
  refine (Rel.refl (R := Eq) (fun _ => rfl) _).bind ?_
  rintro _ _ _
  split
  · rfl
  · refine (Rel.refl (R := Eq) (fun _ => rfl) _).bind ?_
    rintro spec _ rfl
    cases spec with
    | some spec =>
      cases hc : tr.channel with
      | none =>
        have : (chan δ tr).channel = none := by
          unfold chan
          rw [hc]
          rfl
        simp only [this]
        unfold ChannelingTracker.startChanneling
        rw [this, hc]
        rfl
      | some c =>
        have : (chan δ tr).channel = some { c with start := c.start + δ } := by
          unfold chan
          rw [hc]
          rfl
        simp only [this, endChanneling_later]
        rfl
    | none =>
      cases hc : tr.channel with
      | none =>
        have : (chan δ tr).channel = none := by
          unfold chan
          rw [hc]
          rfl
        simp only [this]
        rfl
      | some c =>
        have : (chan δ tr).channel = some { c with start := c.start + δ } := by
          unfold chan
          rw [hc]
          rfl
        simp only [this, endChanneling_later]
        split
        · split
          · rfl
          · rfl
        · rfl

theorem sortPeriods_later (δ : ℚ) (l : List (ℚ × WithTop ℚ)) :
    sortBy (fun w => toLex w) (l.map (periodLater δ)) = (sortBy (fun w => toLex w) l).map (periodLater δ) := by
  rw [sortBy_map]
  congr 1
  refine sortBy_congr _ _ fun x _ y _ => ?_
  unfold periodLater
  obtain ⟨x1, x2⟩ := x
  obtain ⟨y1, y2⟩ := y
  simp only [Prod.Lex.toLex_le_toLex, add_lt_add_iff_right, add_left_inj]
  refine or_congr Iff.rfl (and_congr Iff.rfl ?_)
  cases x2 with
  | top => cases y2 <;> simp
  | coe x2 =>
    cases y2 with
    | top => simp
    | coe y2 =>
      rw [← WithTop.coe_add, ← WithTop.coe_add, WithTop.coe_le_coe, WithTop.coe_le_coe,
        add_le_add_iff_right]

theorem finalize_later (δ : ℚ) (tr : ChannelingTracker) :
    Rel (Shift.Img (chan δ)) tr.finalize (chan δ tr).finalize := by
  unfold ChannelingTracker.finalize
  refine (Rel.refl (R := Eq) (fun _ => rfl) _).bind ?_
  rintro _ _ _
  show _ = _
  unfold chan
  simp only [Option.map_none]
  rw [← sortPeriods_later]
  congr 2
  cases tr.channel with
  | none => rfl
  | some c =>
    simp only [Option.map_some, List.map_append, List.map_cons, List.map_nil, periodLater, Shift.coe_shift]

structure NoAutoRel (k : ℤ) (C : Dict String JobResourceSettings) (x y : NoAutoState) : Prop where
  tr : TrRel k C x.tr y.tr
  combo : y.combo = Shift.combo k x.combo
  channel : y.channel = chan k x.channel
  casts : y.casts = x.casts.map (periodLater k)

theorem noAutoStep_later (hC : ∀ kv ∈ C, kv.2.expiryFromLastGain = ⊤) {a b : RotationBuilder}
    (hs : b.stats = a.stats) (ht : b.defaultTarget = a.defaultTarget) {x y : NoAutoState}
    (h : NoAutoRel k C x y) (p : TimedPress) :
    Rel (NoAutoRel k C) (a.noAutoStep x p) (b.noAutoStep y (timedLater k p)) := by
  obtain ⟨h1, h2, h3, h4⟩ := h
  unfold noAutoStep timedLater
  simp only [Int.cast_add]
  rw [h2, h3, h4, hs, ht]
  refine (process_later _ _ _ _ _).bind ?_
  rintro ch _ rfl
  refine (resolveConditions_later h1 _ _ _).bind ?_
  rintro ⟨x1, x2, x3, x4⟩ ⟨y1, y2, y3, y4⟩ ⟨g1, g2, g3, g4⟩
  simp only at g1 g2 g3 g4
  subst g1 g2 g3
  refine (Shift.combo_shift _ _ _ _).bind ?_
  rintro ⟨c, cm⟩ _ rfl
  refine (Rel.refl (R := Eq) (fun _ => rfl) _).bind ?_
  rintro ts _ rfl
  refine (Rel.refl (R := Eq) (fun _ => rfl) _).bind ?_
  rintro cast _ rfl
  simp only
  rw [g4.1]
  refine (Shift.se_add _ _ _ _ _).bind ?_
  rintro se _ rfl
  refine (Shift.addResource_shift (.inl hC) g4.2 _ _).bind ?_
  intro r r' hr
  refine ⟨⟨rfl, hr⟩, rfl, rfl, ?_⟩
  simp only
  split
  · simp only [List.map_append, List.map_cons, List.map_nil, periodLater, add_right_comm _ (k : ℚ),
      WithTop.coe_add]
  · rfl

theorem noAutoLoop_later (hC : ∀ kv ∈ C, kv.2.expiryFromLastGain = ⊤) {a b : RotationBuilder}
    (hs : b.stats = a.stats) (ht : b.defaultTarget = a.defaultTarget) (n : ℕ) {x y : NoAutoState}
    (h : NoAutoRel k C x y) (q : List TimedPress) :
    Rel (NoAutoRel k C) (a.noAutoLoop n x q) (b.noAutoLoop n y (q.map (timedLater k))) := by
  induction n generalizing x y q with
  | zero =>
    unfold noAutoLoop
    rw [List.length_map]
    split
    · rfl
    · exact h
  | succ n ih =>
    unfold noAutoLoop
    rw [List.length_map]
    split
    · rw [Shift.heappop_map (lt := TimedPress.pyLt) (timed_lt k)]
      cases Heapq.heappop TimedPress.pyLt q with
      | error e => rfl
      | ok pq =>
        simp only [Except.map, Py.ok_bind]
        refine (noAutoStep_later hC hs ht h pq.1).bind ?_
        intro x y h
        exact ih h pq.2
    · exact h

theorem noAutoPeriods_later {a b : RotationBuilder} (hi : b.initTrackers = a.initTrackers)
    (hs : b.stats = a.stats) (ht : b.defaultTarget = a.defaultTarget)
    (hq : b.qTimed = a.qTimed.map (timedLater k)) (hl : Lasting a.lib a.stats.jobClass) :
    Rel (Shift.Img (List.map (periodLater k))) a.getNoAutoPeriods b.getNoAutoPeriods := by
  unfold getNoAutoPeriods
  rw [hi, hq, List.length_map]
  cases h : a.initTrackers with
  | error e => rfl
  | ok tc =>
    obtain ⟨C, hC, h3, h4⟩ := initTrackers_later (δ := k) hl h
    simp only [Py.ok_bind]
    refine (noAutoLoop_later hC hs ht _ ⟨h3, h4, rfl, rfl⟩ _).bind ?_
    intro x y g
    rw [g.channel, g.casts]
    refine (finalize_later _ _).bind ?_
    rintro ch _ rfl
    refine Rel.bind (R := Shift.Img (List.map (periodLater k))) ?_ ?_
    · unfold ChannelingTracker.getWindows
      refine (Rel.refl (R := Eq) (fun _ => rfl) _).bind ?_
      rintro _ _ _
      rfl
    · rintro ws _ rfl
      show sortBy _ _ = List.map _ (sortBy _ _)
      rw [← sortPeriods_later, List.map_append]

theorem windowsFor_later {d : ℤ} {a b : RotationBuilder} (h : b.downtime = downtimeLater d a.downtime)
    (target : String) :
    b.windowsFor target = (a.windowsFor target).map (List.map (windowLater d)) := by
  unfold windowsFor
  rw [h]
  cases a.downtime with
  | tuple ws => rfl
  | dict x =>
    simp only [downtimeLater, Shift.get?_vals]
    cases Dict.get? x target <;> rfl
  | known ts ws =>
    simp only [downtimeLater]
    split <;> rfl

theorem forward_later {a b : RotationBuilder} (h : b.downtime = downtimeLater k a.downtime) (t : ℚ)
    (target : String) :
    Rel (Shift.Img (· + (k : ℚ))) (a.forward t target) (b.forward (t + k) target) := by
  unfold forward
  rw [windowsFor_later h]
  cases a.windowsFor target with
  | error e => rfl
  | ok ws =>
    simp only [Except.map, Py.ok_bind]
    rw [List.find?_map]
    have hc : (fun w : Window => decide (w.start ≤ t + k ∧ t + k < w.stop) &&
        (w.damageClass.isNone || decide (w.damageClass = some .auto))) ∘ windowLater k =
        (fun w : Window => decide (w.start ≤ t ∧ t < w.stop) &&
        (w.damageClass.isNone || decide (w.damageClass = some .auto))) := by
      funext w
      have : (w.start + (k : ℚ) ≤ t + k ∧ t + (k : ℚ) < w.stop + k) ↔ (w.start ≤ t ∧ t < w.stop) := by
        rw [add_le_add_iff_right, add_lt_add_iff_right]
      exact congrArg (· && _) (decide_eq_decide.2 this)
    rw [hc]
    cases ws.find? _ <;> rfl

theorem nextAuto_later {a b : RotationBuilder} (h : b.downtime = downtimeLater k a.downtime) (t : ℚ)
    (periods : List (ℚ × WithTop ℚ)) (target : String) :
    Rel (Shift.Img (· + ((k : ℚ) : WithTop ℚ))) (a.getNextAutoTime t periods target)
      (b.getNextAutoTime (t + k) (periods.map (periodLater k)) target) := by
  unfold getNextAutoTime
  refine (forward_later h t target).bind ?_
  rintro t' _ rfl
  simp only
  have hf : (periods.map (periodLater k)).filter (fun x => decide (x.1 ≤ t' + k) &&
      decide (x.2 ≥ ((t' + k : ℚ) : WithTop ℚ))) =
      (periods.filter (fun x => decide (x.1 ≤ t') && decide (x.2 ≥ (t' : WithTop ℚ)))).map
        (periodLater k) := by
    rw [List.filter_map]
    congr 1
    refine List.filter_congr fun x _ => ?_
    have : (((t' + k : ℚ) : WithTop ℚ) ≤ x.2 + ((k : ℚ) : WithTop ℚ)) ↔ (t' : WithTop ℚ) ≤ x.2 := by
      rw [← not_lt, ← not_lt, Shift.top_lt]
    simp only [Function.comp, periodLater, add_le_add_iff_right, ge_iff_le, this]
  rw [hf]
  cases periods.filter (fun x => decide (x.1 ≤ t') && decide (x.2 ≥ (t' : WithTop ℚ))) with
  | nil => rfl
  | cons x xs =>
    show List.foldl _ _ _ = List.foldl _ _ _ + _
    have : ∀ (l : List (ℚ × WithTop ℚ)) (m : WithTop ℚ),
        (l.map (periodLater k)).foldl (fun m y => max m y.2) (m + ((k : ℚ) : WithTop ℚ)) =
          l.foldl (fun m y => max m y.2) m + ((k : ℚ) : WithTop ℚ) := by
      intro l
      induction l with
      | nil => intro m; rfl
      | cons y l ih =>
        intro m
        rw [List.map_cons, List.foldl_cons, List.foldl_cons, ← ih]
        congr 1
        exact max_add_add_right _ _ _
    exact this xs x.2

/-- Two builders in the loop of the auto-attacks. -/
structure AutoRel (k : ℤ) (a b : RotationBuilder) : Prop where
  trackers : b.initTrackers = a.initTrackers
  stats : b.stats = a.stats
  lib : b.lib = a.lib
  target : b.defaultTarget = a.defaultTarget
  timed : b.qTimed = a.qTimed.map (timedLater k)
  downtime : b.downtime = downtimeLater k a.downtime
  events : b.events = laterTimeline k a.events
  lasting : Lasting a.lib a.stats.jobClass
  ok : a.events.Ok

theorem advanceIndex_later (ts : List (ℚ × String)) (t : ℚ) (i : ℕ) :
    advanceIndex (ts.map (stampLater k)) (t + k) i = advanceIndex ts t i := by
  unfold advanceIndex
  rw [← List.map_drop, List.takeWhile_map, List.length_map]
  have : (fun x : ℚ × String => decide (x.1 ≤ t + k)) ∘ stampLater k = fun x => decide (x.1 ≤ t) := by
    funext x
    simp only [Function.comp, stampLater, add_le_add_iff_right]
  rw [this]

theorem autoEvent_later (skill : Skill) (t delay : ℚ) (target : String) :
    autoEvent skill (t + k) delay target = newLater k (autoEvent skill t delay target) := by
  unfold autoEvent newLater
  simp only [sub_self, zero_add, Option.map_some, add_right_comm t]

theorem mem_pushAll_of {evs : Events} (h : evs.Ok) {a : NewEvent} {as : List NewEvent} (ha : a ∈ as) :
    ∃ e ∈ (as.foldl Events.push evs).q, e.primary = a.primary := by
  obtain ⟨-, es, h2, h3⟩ := pushes_spec as evs h
  obtain ⟨e, he, hb⟩ := forall₂_mem_left (eventsOf_forall₂ h2) ha
  exact ⟨e, h3.mem_iff.2 (List.mem_append_left _ he), hb.2.1⟩

theorem autosLoop_later {skill : Skill} {delay : ℚ} {ts : List (ℚ × String)} {last weaponDelay : ℚ}
    {n : ℕ} {a b a' : RotationBuilder} {t : WithTop ℚ} {i : ℕ} (h : AutoRel k a b)
    (ha : autosLoop skill delay ts last weaponDelay n a t i = .ok a')
    (hp : ∀ e ∈ a'.events.q, PrioOk k e.primary) :
    autosLoop skill delay (ts.map (stampLater k)) (last + k) weaponDelay n b
      (t + ((k : ℚ) : WithTop ℚ)) i = .ok { b with events := laterTimeline k a'.events } := by
  induction n generalizing a b t i with
  | zero => cases ha
  | succ n ih =>
    unfold autosLoop at ha ⊢
    cases t with
    | top =>
      cases ha
      show Except.ok b = _
      rw [← h.events]
    | coe t =>
      rw [← WithTop.coe_add]
      have hc : (t + k + delay < last + k) ↔ t + delay < last := by
        rw [add_right_comm, add_lt_add_iff_right]
      simp only [hc] at ha ⊢
      split_ifs at ha ⊢ with hl
      · obtain ⟨⟨x, target⟩, h1, ha⟩ := Py.bind_eq_ok.1 ha
        simp only [addEvent_eq_addAll, Py.ok_bind] at ha ⊢
        rw [advanceIndex_later, Shift.pyIdx_map, h1]
        simp only [Except.map, Py.ok_bind, stampLater]
        obtain ⟨timeline, h2, ha⟩ := Py.bind_eq_ok.1 ha
        obtain ⟨⟨bu, de⟩, h3, ha⟩ := Py.bind_eq_ok.1 ha
        obtain ⟨periods, h4, ha⟩ := Py.bind_eq_ok.1 ha
        obtain ⟨next, h5, ha⟩ := Py.bind_eq_ok.1 ha
        have hpt : PrioOk k t := by
          obtain ⟨autos, rfl, -⟩ := autosLoop_adds _ _ _ _ _ _ _ _ _ _ ha
          obtain ⟨e, he, hpe⟩ := mem_pushAll_of h.ok (as := autoEvent skill t delay target :: autos.map fun p => autoEvent skill p.1 delay p.2)
            (List.mem_cons_self ..)
          have := hp e he
          rw [hpe] at this
          exact this
        have hr : AutoRel k (a.addAll [autoEvent skill t delay target])
            (b.addAll [autoEvent skill (t + k) delay target]) := by
          obtain ⟨g1, g2, g3, g4, g5, g6, g7, g8, g9⟩ := h
          refine ⟨g1, g2, g3, g4, g5, g6, ?_, g8, (pushes_spec [autoEvent skill t delay target] _ g9).1⟩
          show Events.push b.events _ = laterTimeline k (Events.push a.events _)
          rw [g7, autoEvent_later, push_later hpt]
        have r2 := speedTimeline_later hr.events
        rw [h2] at r2
        have r3 := applicable_later (k := k) hr.trackers hr.lasting timeline t skill {}
          [(a.addAll [autoEvent skill t delay target]).defaultTarget]
        rw [h3] at r3
        have r4 := noAutoPeriods_later hr.trackers hr.stats hr.target hr.timed hr.lasting
        rw [h4] at r4
        have r5 := nextAuto_later hr.downtime (t + ((Utils.truncateToDigit (weaponDelay *
          bu.autoAttackDelayMult * de.autoAttackDelayMult) 2 : ℤ) : ℚ)) periods target
        rw [h5] at r5
        revert r2
        cases (b.addAll [autoEvent skill (t + k) delay target]).speedTimeline with
        | error e => intro r2; exact r2.elim
        | ok timeline' =>
          rintro rfl
          simp only [Py.ok_bind]
          rw [hr.target]
          revert r3
          cases (b.addAll [autoEvent skill (t + k) delay target]).applicableStatusEffects
              (timeline.map (speedLater k)) (t + k) skill {}
              [(a.addAll [autoEvent skill t delay target]).defaultTarget] with
          | error e => intro r3; exact r3.elim
          | ok be =>
            rintro rfl
            simp only [Py.ok_bind]
            revert r4
            cases (b.addAll [autoEvent skill (t + k) delay target]).getNoAutoPeriods with
            | error e => intro r4; exact r4.elim
            | ok periods' =>
              rintro rfl
              simp only [Py.ok_bind]
              rw [add_right_comm t]
              revert r5
              cases (b.addAll [autoEvent skill (t + k) delay target]).getNextAutoTime
                (t + ((Utils.truncateToDigit (weaponDelay * bu.autoAttackDelayMult *
                  de.autoAttackDelayMult) 2 : ℤ) : ℚ) + k) (periods.map (periodLater k)) target with
              | error e => intro r5; exact r5.elim
              | ok next' =>
                rintro rfl
                exact ih hr ha
      · cases ha
        show Except.ok b = _
        rw [← h.events]

theorem shortenFrom_later (c : String) (l : List (ℚ × String)) :
    shortenFrom c (l.map (stampLater k)) = (shortenFrom c l).map (stampLater k) := by
  induction l generalizing c with
  | nil => rfl
  | cons x l ih =>
    simp only [List.map_cons, shortenFrom, ih]
    rw [show (stampLater k x).2 = x.2 from rfl]
    split <;> rfl

theorem shorten_later (l : List (ℚ × String)) :
    shortenSequence (sortBy (·.1) (l.map (stampLater k))) =
      (shortenSequence (sortBy (·.1) l)).map (List.map (stampLater k)) := by
  have : sortBy (fun x : ℚ × String => x.1) (l.map (stampLater k)) =
      (sortBy (fun x : ℚ × String => x.1) l).map (stampLater k) := by
    rw [sortBy_map]
    congr 1
    refine sortBy_congr _ _ fun p _ q _ => ?_
    exact add_le_add_iff_right (k : ℚ)
  rw [this]
  cases sortBy (fun x : ℚ × String => x.1) l with
  | nil => rfl
  | cons x l =>
    simp only [List.map_cons, shortenSequence, Except.map, shortenFrom_later]
    rfl

theorem addAutos_later {n : ℕ} {a b a' : RotationBuilder} {last : Option ℚ} (h : AutoRel k a b)
    (hs : b.timestamps = a.timestamps.map (stampLater k)) (ha : a.addAutos n last = .ok a')
    (hp : ∀ e ∈ a'.events.q, PrioOk k e.primary) :
    b.addAutos n (last.map (· + (k : ℚ))) = .ok { b with events := laterTimeline k a'.events } := by
  unfold addAutos at ha ⊢
  obtain ⟨ts, h1, ha⟩ := Py.bind_eq_ok.1 ha
  obtain ⟨skill, h2, ha⟩ := Py.bind_eq_ok.1 ha
  obtain ⟨first, h3, ha⟩ := Py.bind_eq_ok.1 ha
  have h2' : b.autoSkill = .ok skill := by
    rw [← h2]
    unfold autoSkill
    rw [h.lib, h.stats]
  have h3' : b.events.getFirstDamageTime = .ok (first.map (· + (k : ℚ))) := by
    rw [h.events, firstDamage_later, h3]
    rfl
  rw [hs, shorten_later, h1, h2', h3']
  cases first with
  | none => cases ha
  | some first =>
    simp only at ha
    obtain ⟨delay, h4, ha⟩ := Py.bind_eq_ok.1 ha
    simp only [Except.map, Py.ok_bind, Option.map_some, h4]
    have hlast : (match last.map (· + (k : ℚ)) with
        | none => b.events.getLastEventTime
        | some l => some l) = (match last with
        | none => a.events.getLastEventTime
        | some l => some l).map (· + (k : ℚ)) := by
      cases last with
      | none =>
        simp only [Option.map_none]
        rw [h.events, lastEvent_exact]
      | some l => rfl
    have main : ∀ l l' : Option ℚ, l' = l.map (· + (k : ℚ)) → (match l with
          | none => Except.error PyErr.typeError
          | some last => autosLoop skill delay ts last
            (((pyInt (1000 * a.stats.weaponDelay) : ℤ) : ℚ) *
              (1 - a.stats.processed.traitAutoAttackDelayReduction)) n a (first : ℚ) 0) = .ok a' →
        (match l' with
          | none => Except.error PyErr.typeError
          | some last => autosLoop skill delay (ts.map (stampLater k)) last
            (((pyInt (1000 * b.stats.weaponDelay) : ℤ) : ℚ) *
              (1 - b.stats.processed.traitAutoAttackDelayReduction)) n b ((first + k : ℚ) : WithTop ℚ) 0) =
          .ok { b with events := laterTimeline k a'.events } := by
      rintro l l' rfl ha
      cases l with
      | none => cases ha
      | some l =>
        simp only [Option.map_some]
        have := autosLoop_later h ha hp
        rw [← h.stats] at this
        exact this
    rw [← hs]
    exact main _ _ hlast ha

/-! ## Finishing -/

theorem shiftLoop_later {first : ℚ} (hf : PrioOk k first) (n : ℕ) (evs res : Events) :
    shiftLoop (first + k) n (laterTimeline k evs) res = shiftLoop first n evs res := by
  induction n generalizing evs res with
  | zero =>
    unfold shiftLoop
    rw [isEmpty_later]
  | succ n ih =>
    unfold shiftLoop
    rw [isEmpty_later, getNext_later]
    split
    · rfl
    · cases evs.getNext with
      | error e => rfl
      | ok r =>
        simp only [Except.map, Py.ok_bind, Events.add_eq_push]
        rw [ih]
        congr 2
        unfold shiftedEvent laterEvent
        simp only [prio_later hf, prio_int, add_sub_add_right_eq_sub, Option.map_map, NewEvent.mk.injEq,
          true_and, and_true]
        cases r.1.secondary <;> simp [Function.comp]

theorem inDowntime_later {d : ℤ} {a b : RotationBuilder} (h : b.downtime = downtimeLater d a.downtime)
    (t : ℚ) (target : String) (c : DamageClass) :
    b.inDowntime (t + d) target c = a.inDowntime t target c := by
  unfold inDowntime
  rw [windowsFor_later h]
  cases a.windowsFor target with
  | error e => rfl
  | ok ws =>
    simp only [Except.map, Py.ok_bind, List.any_map]
    congr 2
    funext w
    have : (w.start + (d : ℚ) ≤ t + d ∧ t + (d : ℚ) < w.stop + d) ↔ (w.start ≤ t ∧ t < w.stop) := by
      rw [add_le_add_iff_right, add_lt_add_iff_right]
    exact congrArg (· && _) (decide_eq_decide.2 this)

theorem validTargets_later {d : ℤ} {a b : RotationBuilder} (h : b.downtime = downtimeLater d a.downtime)
    (e : Event) (l : List String) : b.validTargets (laterEvent d e) l = a.validTargets e l := by
  induction l with
  | nil => rfl
  | cons target l ih =>
    unfold validTargets
    rw [ih]
    have : b.targetKept (laterEvent d e) target = a.targetKept e target := by
      unfold targetKept
      rw [applicationTime_later, show (laterEvent d e).skill = e.skill from rfl,
        show (laterEvent d e).modifier = e.modifier from rfl,
        show (laterEvent d e).primary = e.primary + d from rfl]
      simp only [inDowntime_later h]
    rw [this]

theorem kept_later (d : ℤ) (e : Event) (ts : List String) (n : ℕ) :
    Events.mkEvent (keptEvent (laterEvent d e) ts) n = laterEvent d (Events.mkEvent (keptEvent e ts) n) := by
  have hc : some (laterEvent d e).primary = (laterEvent d e).secondary ↔ some e.primary = e.secondary := by
    unfold laterEvent
    cases e.secondary with
    | none => simp
    | some s => simp
  unfold Events.mkEvent keptEvent
  simp only [hc]
  split <;> simp [laterEvent]

theorem removeLoop_later {d : ℤ} {a b : RotationBuilder} (h : b.downtime = downtimeLater d a.downtime)
    (n : ℕ) (evs res : Events) :
    b.removeLoop n (laterTimeline d evs) (laterTimeline d res) =
      (a.removeLoop n evs res).map (laterTimeline d) := by
  induction n generalizing evs res with
  | zero =>
    unfold removeLoop
    rw [isEmpty_later]
    split <;> rfl
  | succ n ih =>
    unfold removeLoop
    rw [isEmpty_later, getNext_later]
    split
    · rfl
    · cases evs.getNext with
      | error e => rfl
      | ok r =>
        simp only [Except.map, Py.ok_bind, Events.add_eq_push, validTargets_later h]
        rw [show (laterEvent (d : ℚ) r.1).targets = r.1.targets from rfl]
        cases a.validTargets r.1 r.1.targets with
        | error e => rfl
        | ok ts =>
          simp only [Py.ok_bind]
          split
          · rw [push_of_mk (kept_later d r.1 ts) rfl, ih]
            rfl
          · rw [ih]
            rfl

theorem laterTimeline_zero (evs : Events) : laterTimeline ((0 : ℤ) : ℚ) evs = evs := by
  unfold laterTimeline
  have : evs.q.map (laterEvent ((0 : ℤ) : ℚ)) = evs.q := by
    conv_rhs => rw [← List.map_id evs.q]
    refine List.map_congr_left fun e _ => ?_
    unfold laterEvent
    rw [prio_int]
    have h2 : e.secondary.map (· + ((0 : ℤ) : ℚ)) = e.secondary := by
      cases e.secondary <;> simp
    rw [h2]
    simp
  rw [this]

theorem finish_exact {d : ℤ} {a b a' : RotationBuilder} (he : b.events = laterTimeline k a.events)
    (hp : b.presses = a.presses.map (laterPress k))
    (hs : (a.fightStart = none ∧ b.fightStart = none ∧ d = 0 ∧ (∃ e ∈ a.events.q, Damaging e) ∧
      ∀ e ∈ a.events.q, PrioOk k (appliedAt e)) ∨
      (a.fightStart ≠ none ∧ b.fightStart ≠ none ∧ d = k))
    (hd : b.downtime = downtimeLater d a.downtime) (ha : finish a = .ok a') :
    ∃ b', finish b = .ok b' ∧ b'.events = laterTimeline d a'.events ∧
      b'.presses = a'.presses.map (laterPress d) := by
  unfold finish at ha ⊢
  obtain ⟨a1, h1, ha⟩ := Py.bind_eq_ok.1 ha
  obtain ⟨a2, h2, ha⟩ := Py.bind_eq_ok.1 ha
  cases ha
  have key : ∃ b1, b.shiftIfNeeded = .ok b1 ∧ b1.events = laterTimeline d a1.events ∧
      b1.presses = a1.presses.map (laterPress d) ∧ b1.downtime = downtimeLater d a1.downtime := by
    unfold shiftIfNeeded at h1 ⊢
    rcases hs with ⟨s1, s2, rfl, ⟨e, he1, he2⟩, hpo⟩ | ⟨s1, s2, rfl⟩
    · rw [s1] at h1
      rw [s2]
      simp only [Option.isNone_none, if_true] at h1 ⊢
      unfold shiftTimelines at h1 ⊢
      obtain ⟨first, hf, h1⟩ := Py.bind_eq_ok.1 h1
      rw [he, firstDamage_later, hf]
      obtain ⟨f1, f2⟩ := firstDamage_spec hf
      cases first with
      | none => exact absurd he2 (f1.1 rfl e he1)
      | some first =>
        obtain ⟨⟨x, hx, -, rfl⟩, -⟩ := f2 first rfl
        simp only at h1
        obtain ⟨evs, h3, h1⟩ := Py.bind_eq_ok.1 h1
        cases h1
        simp only [Except.map, Py.ok_bind, Option.map_some]
        rw [shiftLoop_later (hpo x hx), show (laterTimeline k a.events).q.length = a.events.q.length by
          simp [laterTimeline], h3]
        refine ⟨_, rfl, ?_, ?_, hd⟩
        · exact (laterTimeline_zero _).symm
        · simp only [hp, List.map_map]
          refine List.map_congr_left fun p _ => ?_
          simp [Function.comp, laterPress]
    · rw [if_neg (by simpa using s1)] at h1
      rw [if_neg (by simpa using s2)]
      cases h1
      exact ⟨b, rfl, he, hp, hd⟩
  obtain ⟨b1, g1, g2, g3, g4⟩ := key
  rw [g1]
  simp only [Py.ok_bind]
  unfold removeDamageDuringDowntime at h2 ⊢
  obtain ⟨evs, h3, h2⟩ := Py.bind_eq_ok.1 h2
  cases h2
  have h4 := removeLoop_later g4 a1.events.q.length a1.events {}
  rw [h3] at h4
  rw [g2, show (laterTimeline d a1.events).q.length = a1.events.q.length by simp [laterTimeline],
    show ({} : Events) = laterTimeline d {} from rfl, h4]
  refine ⟨_, rfl, rfl, ?_⟩
  show sortBy _ b1.presses = List.map _ (sortBy _ a1.presses)
  rw [g3, sortPresses_later]

/-! ## The whole timeline -/

theorem beforeDowntime_eq {fuel : ℕ} {rb rb' : RotationBuilder} (r : Run fuel rb rb') :
    beforeDowntime fuel rb = .ok r.collected := by
  unfold beforeDowntime
  rw [afterPresses_eq, r.queue]
  simp only [Py.ok_bind]
  have h1 := r.dots
  have h2 := r.autos
  rw [processAllDots_eq]
  change (allDotAdds rb.start.snapDots (rb.start.apply r.log).lastFor (addDots rb.start.qDot r.log.dots) >>=
    fun as => .ok ((rb.start.apply r.log).addAll as)) >>= _ = _
  rw [(start_fields rb).2.2.1, (start_fields rb).2.2.2.2.2.2.2.2.2.2.2.1, h1]
  simp only [Py.ok_bind]
  change (if rb.start.enableAutos = true then ((rb.start.apply r.log).addAll r.dotAdds).addAutos fuel
    (rb.start.apply r.log).lastFor else pure ((rb.start.apply r.log).addAll r.dotAdds)) = _
  rw [(start_fields rb).2.2.2.1]
  split at h2
  · rename_i h
    rw [if_pos h]
    exact h2.1
  · rename_i h
    rw [if_neg h]
    unfold Run.collected
    rw [h2]
    rfl

theorem timing_exact {d : ℤ} {a b a' : RotationBuilder} {fuel : ℕ} (h : BuilderLater k a b)
    (hr : RestSame k d a b) (hl : Lasting a.lib a.stats.jobClass)
    (hauto : a.enableAutos = true → b.downtime = downtimeLater k a.downtime)
    (htrail : a.ignoreTrailingDots = true → ∀ r, afterPresses a = .ok r →
      LastOk k r.events.getLastEventTime)
    (hprio : ∀ r, beforeDowntime fuel a = .ok r → ∀ e ∈ r.events.q,
      PrioOk k e.primary ∧ PrioOk k (appliedAt e))
    (ha : a.getSkillTiming fuel = .ok a')
    (hs : (a.fightStart = none ∧ b.fightStart = none ∧ d = 0 ∧ ∃ e ∈ a'.events.q, Damaging e) ∨
      (a.fightStart ≠ none ∧ b.fightStart ≠ none ∧ d = k)) :
    ∃ b', b.getSkillTiming fuel = .ok b' ∧ b'.events = laterTimeline d a'.events ∧
      b'.presses = a'.presses.map (laterPress d) := by
  obtain ⟨ra⟩ := run_of_ok ha
  have hprio := hprio _ (beforeDowntime_eq ra)
  have hadd : ∀ x ∈ ra.adds, PrioOk k x.primary := by
    intro x hx
    obtain ⟨e, he, hb⟩ := mem_pushes_of hx
    rw [← ra.collected_events] at he
    rw [← hb.2.1]
    exact (hprio e he).1
  have hadd1 : ∀ x ∈ ra.log.adds, PrioOk k x.primary := fun x hx => hadd x (by simp [Run.adds, hx])
  have hadd2 : ∀ x ∈ ra.dotAdds, PrioOk k x.primary := fun x hx => hadd x (by simp [Run.adds, hx])
  have hlog := logs_later h hl
  rw [ra.queue] at hlog
  have hlog : b.start.queueLog = .ok (logLater k ra.log) := by
    revert hlog
    cases b.start.queueLog with
    | error e => intro hlog; exact hlog.elim
    | ok l => rintro rfl; rfl
  have he : (b.start.apply (logLater k ra.log)).events = laterTimeline k (a.start.apply ra.log).events := by
    show (ra.log.adds.map (newLater k)).foldl Events.push b.start.events =
      laterTimeline k (ra.log.adds.foldl Events.push a.start.events)
    rw [(start_fields a).2.2.2.2.2.2.2.2.2.2.2.2.2.1, (start_fields b).2.2.2.2.2.2.2.2.2.2.2.2.2.1,
      ← pushAll_later hadd1]
    rfl
  have la : LastOk k (a.start.apply ra.log).lastFor := by
    unfold lastFor
    rw [show (a.start.apply ra.log).ignoreTrailingDots = a.ignoreTrailingDots from
      (start_fields a).2.2.2.2.1]
    split
    · rename_i ht
      exact htrail ht _ (by rw [afterPresses_eq, ra.queue]; rfl)
    · intro t ht
      cases ht
  have lb : (b.start.apply (logLater k ra.log)).lastFor =
      (a.start.apply ra.log).lastFor.map (· + (k : ℚ)) := by
    unfold lastFor
    rw [show (a.start.apply ra.log).ignoreTrailingDots = a.ignoreTrailingDots from
      (start_fields a).2.2.2.2.1, show (b.start.apply (logLater k ra.log)).ignoreTrailingDots =
      a.ignoreTrailingDots from (start_fields b).2.2.2.2.1.trans hr.trailing]
    split
    · rw [he, lastEvent_exact]
    · rfl
  have hdots : allDotAdds b.snapDots (b.start.apply (logLater k ra.log)).lastFor
      (addDots b.qDot (logLater k ra.log).dots) = .ok (ra.dotAdds.map (newLater k)) := by
    have h1 := ra.dots
    rw [hr.dots.1] at h1
    rw [lb, hr.snap.2, hr.dots.2]
    have h3 := allDotAdds_later hr.snap.1 la (addDots [] ra.log.dots)
    have h4 : addDots [] (logLater k ra.log).dots = dotsLater k (addDots [] ra.log.dots) :=
      addDots_later k ra.log.dots []
    rw [← h4, h1] at h3
    revert h3
    cases allDotAdds (a.snapDots.map (· + (k : ℚ) / 1000))
        ((a.start.apply ra.log).lastFor.map (· + (k : ℚ))) (addDots [] (logLater k ra.log).dots) with
    | error e => intro h3; exact h3.elim
    | ok x => rintro rfl; rfl
  have he2 : ((b.start.apply (logLater k ra.log)).addAll (ra.dotAdds.map (newLater k))).events =
      laterTimeline k ((a.start.apply ra.log).addAll ra.dotAdds).events := by
    show (ra.dotAdds.map (newLater k)).foldl Events.push (b.start.apply (logLater k ra.log)).events =
      laterTimeline k (ra.dotAdds.foldl Events.push (a.start.apply ra.log).events)
    rw [he, pushAll_later hadd2]
  obtain ⟨e1, e2, e3, e4, e5, e6, e7, e8, e9, e10, e11, e12, e13, e14, e15⟩ := start_fields a
  obtain ⟨f1, f2, f3, f4, f5, f6, f7, f8, f9, f10, f11, f12, f13, f14, f15⟩ := start_fields b
  have hcoll : (if b.enableAutos then
      ((b.start.apply (logLater k ra.log)).addAll (ra.dotAdds.map (newLater k))).addAutos fuel
        (b.start.apply (logLater k ra.log)).lastFor
      else pure ((b.start.apply (logLater k ra.log)).addAll (ra.dotAdds.map (newLater k)))) =
      .ok { (b.start.apply (logLater k ra.log)).addAll (ra.dotAdds.map (newLater k)) with
        events := laterTimeline k ra.collected.events } := by
    rw [hr.autos]
    have hA := ra.autos
    split at hA
    · rename_i hen
      rw [if_pos hen, lb]
      refine addAutos_later ?_ ?_ hA.1 fun e he => (hprio e he).1
      · have hsl := start_later h
        refine ⟨hsl.trackers, hsl.stats, hsl.lib, hsl.target, hsl.timed, start_downtimes (hauto hen) hr.targets,
          he2, ?_, (pushes_spec _ _ (pushes_spec _ _ ?_).1).1⟩
        · show Lasting a.start.lib a.start.stats.jobClass
          rw [e1, e2]
          exact hl
        · rw [e14]
          exact Events.ok_empty
      · show b.start.timestamps ++ (logLater k ra.log).stamps =
          (a.start.timestamps ++ ra.log.stamps).map (stampLater k)
        rw [e15, f15, hr.stamps.1, hr.stamps.2]
        rfl
    · rename_i hen
      rw [if_neg hen]
      show Except.ok _ = Except.ok _
      have : ra.collected.events = ((a.start.apply ra.log).addAll ra.dotAdds).events := by
        unfold Run.collected
        rw [hA]
        rfl
      rw [this, ← he2]
  have key := finish_exact (k := k) (d := d) (a := ra.collected)
    (b := { (b.start.apply (logLater k ra.log)).addAll (ra.dotAdds.map (newLater k)) with
        events := laterTimeline k ra.collected.events }) (a' := a') rfl ?_ ?_ ?_ ra.finished
  · obtain ⟨b', k1, k2, k3⟩ := key
    refine ⟨b', ?_, k2, k3⟩
    rw [getSkillTiming_eq, hlog]
    simp only [Py.ok_bind]
    rw [hdots]
    simp only [Py.ok_bind]
    refine Eq.trans (b := (if b.enableAutos then
      ((b.start.apply (logLater k ra.log)).addAll (ra.dotAdds.map (newLater k))).addAutos fuel
        (b.start.apply (logLater k ra.log)).lastFor
      else pure ((b.start.apply (logLater k ra.log)).addAll (ra.dotAdds.map (newLater k)))) >>= finish) ?_ ?_
    · split <;> rfl
    · rw [hcoll]
      exact k1
  · show b.start.presses ++ (logLater k ra.log).presses = (a.start.presses ++ ra.log.presses).map _
    rw [e13, f13]
    rfl
  · have fa : ra.collected.fightStart = a.fightStart := e6
    have fb : (b.start.apply (logLater k ra.log)).fightStart = b.fightStart := f6
    rw [fa]
    show (a.fightStart = none ∧ (b.start.apply (logLater k ra.log)).fightStart = none ∧ _) ∨
      (a.fightStart ≠ none ∧ (b.start.apply (logLater k ra.log)).fightStart ≠ none ∧ _)
    rw [fb]
    rcases hs with ⟨s1, s2, s3, e', he', hd⟩ | hs
    · obtain ⟨δ, _, _, g, _⟩ := ra.spec
      obtain ⟨e, he, hder⟩ := g e' he'
      refine .inl ⟨s1, s2, s3, ⟨e, he, ?_⟩, fun e he => (hprio e he).2⟩
      obtain ⟨s, hs⟩ := hd
      exact ⟨s, by rw [← hder.skill, ← hder.modifier]; exact hs⟩
    · exact .inr hs
  · exact start_downtimes hr.downtime hr.targets

end RotationBuilder

end Ama
