import Verif.Spec.Extending
import Verif.Lemmas.BuilderPresses
import Verif.Lemmas.BuilderAdd
import Mathlib.Data.List.Perm.Basic

/-!
# Lemmas on adding skills to a rotation
-/

namespace Ama

open Spec

/-! ## Events up to ids -/

theorem sameEvent_of_becomes {a : NewEvent} {e e' : Event} (h : NewEvent.Becomes a e)
    (h' : NewEvent.Becomes a e') : SameEvent e e' := by
  obtain ⟨a1, a2, a3, a4, a5, _, _, _, a9⟩ := h
  obtain ⟨b1, b2, b3, b4, b5, _, _, _, b9⟩ := h'
  by_cases hs : a.secondary = some a.primary
  · rw [if_pos hs] at a9 b9
    exact ⟨by rw [a1, b1], by rw [a2, b2], by rw [a9.1, b9.1], by rw [a3, b3], by rw [a4, b4],
      by rw [a9.2.1, b9.2.1], by rw [a9.2.2, b9.2.2], by rw [a5, b5]⟩
  · rw [if_neg hs] at a9 b9
    exact ⟨by rw [a1, b1], by rw [a2, b2], by rw [a9.1, b9.1], by rw [a3, b3], by rw [a4, b4],
      by rw [a9.2.1, b9.2.1], by rw [a9.2.2, b9.2.2], by rw [a5, b5]⟩

theorem forall₂_same {as : List NewEvent} {es es' : List Event}
    (h : List.Forall₂ NewEvent.Becomes as es) (h' : List.Forall₂ NewEvent.Becomes as es') :
    List.Forall₂ SameEvent es es' := by
  induction h generalizing es' with
  | nil =>
    cases h'
    exact .nil
  | cons h _ ih =>
    cases h' with
    | cons k ks => exact .cons (sameEvent_of_becomes h k) (ih ks)

/-- A queue holds the events of what was added to it. -/
theorem pushes_perm {as bs : List NewEvent} (hp : bs.Perm as) :
    ∃ es, List.Forall₂ NewEvent.Becomes bs es ∧ (as.foldl Events.push {}).q.Perm es := by
  obtain ⟨_, es, h1, h2⟩ := pushes_empty as
  obtain ⟨es', h3, h4⟩ := List.perm_comp_forall₂ hp (eventsOf_forall₂ h1)
  exact ⟨es', h3, h2.trans h4.symm⟩

/-- Adding the same events, in another order. -/
theorem pushes_sameEvents {as bs : List NewEvent} {es : List Event} (hp : bs.Perm as)
    (h : List.Forall₂ NewEvent.Becomes bs es) :
    ∃ kept, List.Forall₂ SameEvent (as.foldl Events.push {}).q kept ∧ kept.Perm es := by
  obtain ⟨es', h1, h2⟩ := pushes_perm hp
  exact List.perm_comp_forall₂ h2 (forall₂_same h1 h) |>.imp fun _ h => ⟨h.1, h.2⟩

/-- Two queues in one. -/
theorem pushes_append {as bs cs : List NewEvent} (hp : cs.Perm (as ++ bs)) :
    ∃ xs ys, List.Forall₂ SameEvent (as.foldl Events.push {}).q xs ∧
      List.Forall₂ SameEvent (bs.foldl Events.push {}).q ys ∧
      (cs.foldl Events.push {}).q.Perm (xs ++ ys) := by
  obtain ⟨es, h1, h2⟩ := pushes_perm hp.symm
  obtain ⟨e1, e2, h3, h4, rfl⟩ : ∃ e1 e2, List.Forall₂ NewEvent.Becomes as e1 ∧
      List.Forall₂ NewEvent.Becomes bs e2 ∧ es = e1 ++ e2 := by
    refine ⟨es.take as.length, es.drop as.length, ?_, ?_, (List.take_append_drop _ _).symm⟩
    · have := List.forall₂_take as.length h1
      simpa using this
    · have := List.forall₂_drop as.length h1
      simpa using this
  obtain ⟨xs, g1, g2⟩ := pushes_sameEvents (.refl _) h3
  obtain ⟨ys, g3, g4⟩ := pushes_sameEvents (.refl _) h4
  exact ⟨xs, ys, g1, g3, h2.trans (g2.symm.append g4.symm)⟩

namespace RotationBuilder

/-! ## Logs of longer queues -/

theorem foldLog_append {S A : Type} {step : S → A → Py (Log × S)} {s s' : S} {as bs : List A}
    {l : Log} (h : foldLog step s (as ++ bs) = .ok (l, s')) :
    ∃ l1 s1 l2, foldLog step s as = .ok (l1, s1) ∧ foldLog step s1 bs = .ok (l2, s') ∧
      l = l1.app l2 := by
  induction as generalizing s l with
  | nil => exact ⟨{}, s, l, rfl, h, rfl⟩
  | cons a as ih =>
    rw [List.cons_append, foldLog] at h
    obtain ⟨⟨l1, s1⟩, h1, h⟩ := Py.bind_eq_ok.1 h
    obtain ⟨⟨l2, s2⟩, h2, h⟩ := Py.bind_eq_ok.1 h
    cases h
    obtain ⟨m1, t1, m2, g1, g2, g3⟩ := ih h2
    refine ⟨l1.app m1, t1, m2, ?_, g2, ?_⟩
    · rw [foldLog, h1]
      simp only [Py.ok_bind, g1]
      rfl
    · simp only [g3, Log.app_assoc]

/-- What determines the presses of a builder, apart from the queues. -/
def SameBasis (rb rb' : RotationBuilder) : Prop :=
  rb'.stats = rb.stats ∧ rb'.lib = rb.lib ∧ rb'.fightStart = rb.fightStart ∧
    rb'.priority = rb.priority ∧ rb'.defaultTarget = rb.defaultTarget

theorem SameBasis.refl (rb : RotationBuilder) : SameBasis rb rb := ⟨rfl, rfl, rfl, rfl, rfl⟩

theorem SameBasis.trans {a b c : RotationBuilder} (h : SameBasis a b) (h' : SameBasis b c) :
    SameBasis a c := by
  obtain ⟨a1, a2, a3, a4, a5⟩ := h
  obtain ⟨b1, b2, b3, b4, b5⟩ := h'
  exact ⟨b1.trans a1, b2.trans a2, b3.trans a3, b4.trans a4, b5.trans a5⟩

theorem SameBasis.symm {a b : RotationBuilder} (h : SameBasis a b) : SameBasis b a := by
  obtain ⟨a1, a2, a3, a4, a5⟩ := h
  exact ⟨a1.symm, a2.symm, a3.symm, a4.symm, a5.symm⟩

theorem SameBasis.trackers {a b : RotationBuilder} (h : SameBasis a b) :
    b.initTrackers = a.initTrackers := by
  obtain ⟨a1, a2, _, a4, _⟩ := h
  unfold initTrackers
  rw [a1, a2, a4]

theorem start_basis (rb : RotationBuilder) : SameBasis rb rb.start := by
  obtain ⟨e1, e2, e3, e4, e5, e6, e7, e8, _⟩ := start_fields rb
  exact ⟨e1, e2, e6, e7, e8⟩

theorem seqLog_congr {a b : RotationBuilder} (h : SameBasis a b) (hq : b.qSequence = a.qSequence) :
    b.seqLog = a.seqLog := by
  unfold seqLog
  rw [h.trackers, h.1, h.2.2.1, hq]

theorem timedLog_congr {a b : RotationBuilder} (h : SameBasis a b) (hq : b.qTimed = a.qTimed) :
    b.timedLog = a.timedLog := by
  unfold timedLog
  rw [h.trackers, h.1, hq]

/-- The sequence, made longer. -/
theorem seqLog_longer {a b : RotationBuilder} {more : List SeqPress} {l l' : Log}
    (h : SameBasis a b) (hq : b.qSequence = a.qSequence ++ more) (ha : a.seqLog = .ok l)
    (hb : b.seqLog = .ok l') : ∃ x, l' = l.app x ∧ x.presses.length = more.length := by
  unfold seqLog at ha hb
  rw [h.trackers, h.1, h.2.2.1, hq] at hb
  obtain ⟨tc, h1, ha⟩ := Py.bind_eq_ok.1 ha
  rw [h1, Py.ok_bind] at hb
  obtain ⟨⟨l1, s1⟩, h2, ha⟩ := Py.bind_eq_ok.1 ha
  obtain ⟨⟨l2, s2⟩, h3, hb⟩ := Py.bind_eq_ok.1 hb
  cases ha
  cases hb
  obtain ⟨m1, t1, m2, g1, g2, g3⟩ := foldLog_append h3
  rw [h2] at g1
  cases g1
  refine ⟨m2, g3, ?_⟩
  obtain ⟨us, k1, k2, _⟩ := seqFold_spec g2
  rw [k2, logsOf_presses, List.length_map, k1.length_eq]

theorem timedLog_fold {rb : RotationBuilder} {l : Log} (h : rb.timedLog = .ok l) :
    ∃ tc order s, rb.initTrackers = .ok tc ∧ order.Perm rb.qTimed ∧
      order.Pairwise (fun a b => a.t ≤ b.t) ∧
      foldLog (timedStepLog rb.stats) tc order = .ok (l, s) := by
  unfold timedLog at h
  obtain ⟨tc, h0, h⟩ := Py.bind_eq_ok.1 h
  obtain ⟨⟨l1, s1⟩, h2, h⟩ := Py.bind_eq_ok.1 h
  cases h
  obtain ⟨order, us, _, _, g3, g4, g5⟩ := timedLoopLog_spec _ _ _ _ _ _
    (Heapq.isHeap_of_sorted (sortBy_sorted _ _)) h2
  exact ⟨tc, order, s1, h0, g3.trans (sortBy_perm _ _), g5, g4⟩

/-- The presses of the timed queue. -/
theorem timedLog_presses {rb : RotationBuilder} {l : Log} (h : rb.timedLog = .ok l) :
    l.presses.Perm (rb.qTimed.map (fun p => reported rb.stats p.t p.skill p.modifier p.jobClass)) := by
  obtain ⟨order, us, g1, g2, g3, g4⟩ := timedLog_spec h
  rw [g2, logsOf_presses]
  have e : us.map (Use.press rb.stats) =
      order.map (fun p => reported rb.stats p.t p.skill p.modifier p.jobClass) := by
    clear g2 g3 g4 h
    induction g1 with
    | nil => rfl
    | cons hu _ ih =>
      obtain ⟨_, a0, a1, a2, a3, _⟩ := hu
      rw [List.map_cons, List.map_cons, ih, press_eq_reported, a0, a1, a2, a3]
  rw [e]
  exact g3.map _

/-- The timed queue, made longer by later presses. -/
theorem timedLog_longer {a b : RotationBuilder} {more : List TimedPress} {l l' : Log}
    (h : SameBasis a b) (hq : b.qTimed = a.qTimed ++ more)
    (hm : ∀ p ∈ more, (a.qTimed.map (·.t)).Nodup ∧ ∀ p' ∈ a.qTimed, p'.t < p.t)
    (ha : a.timedLog = .ok l) (hb : b.timedLog = .ok l') : ∃ x, l' = l.app x := by
  cases more with
  | nil =>
    rw [timedLog_congr h (by rw [hq, List.append_nil]), ha] at hb
    cases hb
    exact ⟨{}, by simp⟩
  | cons p0 more =>
    have hnd := (hm p0 (by simp)).1
    obtain ⟨tc, o1, s1, a1, a2, a3, a4⟩ := timedLog_fold ha
    obtain ⟨tc', o2, s2, b1, b2, b3, b4⟩ := timedLog_fold hb
    rw [h.trackers, a1] at b1
    cases b1
    rw [h.1] at b4
    -- the longer queue begins with the shorter one
    set o3 := sortBy (fun p : TimedPress => p.t) (p0 :: more) with ho3
    have hp : o2.Perm (o1 ++ o3) := by
      refine b2.trans ?_
      rw [hq]
      exact a2.symm.append (sortBy_perm _ _).symm
    have hlt : ∀ x ∈ o1, ∀ y ∈ o3, x.t < y.t := fun x hx y hy =>
      (hm y ((sortBy_perm _ _).mem_iff.1 hy)).2 x (a2.mem_iff.1 hx)
    have hsplit : ∃ z, o2 = o1 ++ z := by
      have hnd' : (o1.map (·.t)).Nodup := ((a2.map _).nodup_iff).2 hnd
      clear_value o3
      clear a4 b4 a2 b2 ho3 hm ha hb hnd hq
      induction o1 generalizing o2 with
      | nil => exact ⟨o2, rfl⟩
      | cons x o1 ih =>
        cases o2 with
        | nil => exact absurd hp.symm (by simp)
        | cons y o2 =>
          have hxy : y = x := by
            have hy : y ∈ (x :: o1) ++ o3 := hp.mem_iff.1 (by simp)
            have hx : x ∈ y :: o2 := hp.mem_iff.2 (by simp)
            have h1 : y.t ≤ x.t := by
              rcases List.mem_cons.1 hx with rfl | hx
              · exact le_rfl
              · exact (List.pairwise_cons.1 b3).1 x hx
            rcases List.mem_append.1 hy with hy | hy
            · rcases List.mem_cons.1 hy with rfl | hy
              · rfl
              · have h2 := (List.pairwise_cons.1 a3).1 y hy
                have h3 : x.t = y.t := le_antisymm h2 h1
                rw [List.map_cons, List.nodup_cons] at hnd'
                exact absurd (List.mem_map.2 ⟨y, hy, h3.symm⟩) hnd'.1
            · exact absurd (hlt x (by simp) y hy) (not_lt.2 h1)
          subst hxy
          obtain ⟨z, rfl⟩ := ih (List.pairwise_cons.1 a3).2 o2 (List.pairwise_cons.1 b3).2
            (List.perm_cons y |>.1 hp) (fun x hx => hlt x (List.mem_cons_of_mem _ hx))
            (List.nodup_cons.1 hnd').2
          exact ⟨z, rfl⟩
    obtain ⟨z, rfl⟩ := hsplit
    obtain ⟨m1, t1, m2, g1, _, g3⟩ := foldLog_append b4
    rw [a4] at g1
    cases g1
    exact ⟨m2, g3⟩

/-! ## Calls that add -/

/-- What a list of calls does to the queues. -/
theorem ops_extend {ops : List BuilderOp} {rb rb' : RotationBuilder}
    (h : ops.foldlM BuilderOp.run rb = .ok rb') :
    SameBasis rb rb' ∧ ∃ ms mt, rb'.qSequence = rb.qSequence ++ ms ∧
      rb'.qTimed = rb.qTimed ++ mt ∧ ms.length + mt.length = (ops.map BuilderOp.count).sum ∧
      ∀ p ∈ mt, ∃ t name m job targets, BuilderOp.add t name m job targets ∈ ops ∧
        p.t = pyInt (1000 * t) := by
  induction ops generalizing rb with
  | nil =>
    cases h
    exact ⟨.refl _, [], [], by simp, by simp, by simp, by simp⟩
  | cons op ops ih =>
    rw [Py.foldlM_cons] at h
    obtain ⟨r, h1, h2⟩ := Py.bind_eq_ok.1 h
    obtain ⟨g0, ms, mt, g1, g2, g3, g4⟩ := ih h2
    have key : SameBasis rb r ∧ ∃ ms mt, r.qSequence = rb.qSequence ++ ms ∧
        r.qTimed = rb.qTimed ++ mt ∧ ms.length + mt.length = op.count ∧
        ∀ p ∈ mt, ∃ t name m job targets, BuilderOp.add t name m job targets = op ∧
          p.t = pyInt (1000 * t) := by
      clear g0 g1 g2 g3 g4 ih h2 h
      cases op with
      | addNext name m job n targets =>
        obtain ⟨skill, _, rfl⟩ := addNext_ok h1
        exact ⟨⟨rfl, rfl, rfl, rfl, rfl⟩, _, [], rfl, (List.append_nil _).symm,
          by simp [BuilderOp.count], by simp⟩
      | add t name m job targets =>
        obtain ⟨skill, _, rfl⟩ := add_ok h1
        refine ⟨⟨rfl, rfl, rfl, rfl, rfl⟩, [], _, (List.append_nil _).symm, rfl,
          by simp [BuilderOp.count], ?_⟩
        intro p hp
        rw [List.mem_singleton.1 hp]
        exact ⟨t, name, m, job, targets, rfl, rfl⟩
      | setTrailing b =>
        cases h1
        exact ⟨⟨rfl, rfl, rfl, rfl, rfl⟩, [], [], (List.append_nil _).symm,
          (List.append_nil _).symm, rfl, by simp⟩
      | setAutos b =>
        cases h1
        exact ⟨⟨rfl, rfl, rfl, rfl, rfl⟩, [], [], (List.append_nil _).symm,
          (List.append_nil _).symm, rfl, by simp⟩
      | timing fuel =>
        obtain ⟨e1, e2, e3, e4, e5, e6, e7, e8, e9, e10, e11, e12⟩ := timing_fields h1
        exact ⟨⟨e1, e2, e11, e12, e7⟩, [], [], by rw [e5, List.append_nil],
          by rw [e4, List.append_nil], rfl, by simp⟩
    obtain ⟨k0, ms', mt', k1, k2, k3, k4⟩ := key
    refine ⟨k0.trans g0, ms' ++ ms, mt' ++ mt, ?_, ?_, ?_, ?_⟩
    · rw [g1, k1, List.append_assoc]
    · rw [g2, k2, List.append_assoc]
    · simp only [List.length_append, List.map_cons, List.sum_cons, ← g3, ← k3]
      omega
    · intro p hp
      rcases List.mem_append.1 hp with hp | hp
      · obtain ⟨t, name, m, job, targets, rfl, h'⟩ := k4 p hp
        exact ⟨t, name, m, job, targets, by simp, h'⟩
      · obtain ⟨t, name, m, job, targets, h, h'⟩ := g4 p hp
        exact ⟨t, name, m, job, targets, List.mem_cons_of_mem _ h, h'⟩

/-- What one call does to the queues depends on nothing but the basis. -/
theorem op_queues {op : BuilderOp} {a b a' b' : RotationBuilder} (hab : SameBasis a b)
    (ha : op.run a = .ok a') (hb : op.run b = .ok b') :
    SameBasis a' b' ∧
      (b.qSequence = a.qSequence → b'.qSequence = a'.qSequence) ∧
      (b.qTimed = a.qTimed → b'.qTimed = a'.qTimed) := by
  obtain ⟨e1, e2, e3, e4, e5⟩ := hab
  cases op with
  | addNext name m job n targets =>
    obtain ⟨s1, h1, rfl⟩ := addNext_ok ha
    obtain ⟨s2, h2, rfl⟩ := addNext_ok hb
    rw [e1, e2, h1] at h2
    cases h2
    refine ⟨⟨e1, e2, e3, e4, e5⟩, fun hq => ?_, fun hq => hq⟩
    simp only [hq, e1, e5, getDefaultSkillModifier]
  | add t name m job targets =>
    obtain ⟨s1, h1, rfl⟩ := add_ok ha
    obtain ⟨s2, h2, rfl⟩ := add_ok hb
    rw [e1, e2, h1] at h2
    cases h2
    refine ⟨⟨e1, e2, e3, e4, e5⟩, fun hq => hq, fun hq => ?_⟩
    simp only [hq, e1, e5, getDefaultSkillModifier]
  | setTrailing x =>
    cases ha
    cases hb
    exact ⟨⟨e1, e2, e3, e4, e5⟩, fun hq => hq, fun hq => hq⟩
  | setAutos x =>
    cases ha
    cases hb
    exact ⟨⟨e1, e2, e3, e4, e5⟩, fun hq => hq, fun hq => hq⟩
  | timing fuel =>
    obtain ⟨a1, a2, a3, a4, a5, a6, a7, a8, a9, a10, a11, a12⟩ := timing_fields ha
    obtain ⟨b1, b2, b3, b4, b5, b6, b7, b8, b9, b10, b11, b12⟩ := timing_fields hb
    refine ⟨⟨by rw [a1, b1, e1], by rw [a2, b2, e2], by rw [a11, b11, e3], by rw [a12, b12, e4],
      by rw [a7, b7, e5]⟩, fun hq => by rw [a5, b5, hq], fun hq => by rw [a4, b4, hq]⟩

/-- One call leaves the queue alone to which it does not add. -/
theorem op_other {op : BuilderOp} {a a' : RotationBuilder} (ha : op.run a = .ok a') :
    SameBasis a a' ∧ (op.isNext = false → a'.qSequence = a.qSequence) ∧
      (op.isTimed = false → a'.qTimed = a.qTimed) := by
  cases op with
  | addNext name m job n targets =>
    obtain ⟨s1, h1, rfl⟩ := addNext_ok ha
    exact ⟨⟨rfl, rfl, rfl, rfl, rfl⟩, fun h => by simp [BuilderOp.isNext] at h, fun _ => rfl⟩
  | add t name m job targets =>
    obtain ⟨s1, h1, rfl⟩ := add_ok ha
    exact ⟨⟨rfl, rfl, rfl, rfl, rfl⟩, fun _ => rfl, fun h => by simp [BuilderOp.isTimed] at h⟩
  | setTrailing x =>
    cases ha
    exact ⟨⟨rfl, rfl, rfl, rfl, rfl⟩, fun _ => rfl, fun _ => rfl⟩
  | setAutos x =>
    cases ha
    exact ⟨⟨rfl, rfl, rfl, rfl, rfl⟩, fun _ => rfl, fun _ => rfl⟩
  | timing fuel =>
    obtain ⟨a1, a2, a3, a4, a5, a6, a7, a8, a9, a10, a11, a12⟩ := timing_fields ha
    exact ⟨⟨a1, a2, a11, a12, a7⟩, fun _ => a5, fun _ => a4⟩

/-- Leaving out the calls that add timed skills. -/
theorem ops_sequence {ops : List BuilderOp} {a b a' b' : RotationBuilder} (hab : SameBasis a b)
    (hq : b.qSequence = a.qSequence) (ha : ops.foldlM BuilderOp.run a = .ok a')
    (hb : (ops.filter (fun op => !op.isTimed)).foldlM BuilderOp.run b = .ok b') :
    SameBasis a' b' ∧ b'.qSequence = a'.qSequence ∧ b'.qTimed = b.qTimed := by
  induction ops generalizing a b with
  | nil =>
    cases ha
    cases hb
    exact ⟨hab, hq, rfl⟩
  | cons op ops ih =>
    rw [Py.foldlM_cons] at ha
    obtain ⟨a1, h1, h2⟩ := Py.bind_eq_ok.1 ha
    cases hop : op.isTimed with
    | true =>
      rw [List.filter_cons_of_neg (by simp [hop])] at hb
      obtain ⟨k0, k1, _⟩ := op_other h1
      have hn : op.isNext = false := by cases op <;> simp_all [BuilderOp.isNext, BuilderOp.isTimed]
      exact ih (k0.symm.trans hab) (by rw [k1 hn, hq]) h2 hb
    | false =>
      rw [List.filter_cons_of_pos (by simp [hop]), Py.foldlM_cons] at hb
      obtain ⟨b1, h3, h4⟩ := Py.bind_eq_ok.1 hb
      obtain ⟨k0, k1, _⟩ := op_queues hab h1 h3
      obtain ⟨g0, g1, g2⟩ := ih k0 (k1 hq) h2 h4
      exact ⟨g0, g1, g2.trans ((op_other h3).2.2 hop)⟩

/-- Leaving out the calls that add to the sequence. -/
theorem ops_timed {ops : List BuilderOp} {a b a' b' : RotationBuilder} (hab : SameBasis a b)
    (hq : b.qTimed = a.qTimed) (ha : ops.foldlM BuilderOp.run a = .ok a')
    (hb : (ops.filter (fun op => !op.isNext)).foldlM BuilderOp.run b = .ok b') :
    SameBasis a' b' ∧ b'.qTimed = a'.qTimed ∧ b'.qSequence = b.qSequence := by
  induction ops generalizing a b with
  | nil =>
    cases ha
    cases hb
    exact ⟨hab, hq, rfl⟩
  | cons op ops ih =>
    rw [Py.foldlM_cons] at ha
    obtain ⟨a1, h1, h2⟩ := Py.bind_eq_ok.1 ha
    cases hop : op.isNext with
    | true =>
      rw [List.filter_cons_of_neg (by simp [hop])] at hb
      obtain ⟨k0, _, k1⟩ := op_other h1
      have hn : op.isTimed = false := by cases op <;> simp_all [BuilderOp.isNext, BuilderOp.isTimed]
      exact ih (k0.symm.trans hab) (by rw [k1 hn, hq]) h2 hb
    | false =>
      rw [List.filter_cons_of_pos (by simp [hop]), Py.foldlM_cons] at hb
      obtain ⟨b1, h3, h4⟩ := Py.bind_eq_ok.1 hb
      obtain ⟨k0, _, k1⟩ := op_queues hab h1 h3
      obtain ⟨g0, g1, g2⟩ := ih k0 (k1 hq) h2 h4
      exact ⟨g0, g1, g2.trans ((op_other h3).2.1 hop)⟩

theorem afterPresses_eq (rb : RotationBuilder) :
    afterPresses rb = (rb.start.queueLog >>= fun l => .ok (rb.start.apply l)) := by
  have hq : afterPresses rb = (rb.start.processQSequence >>= fun rb => rb.processQTimed) := rfl
  rw [hq, processQueues_eq]

theorem afterPresses_parts {rb r : RotationBuilder} (h : afterPresses rb = .ok r) :
    ∃ l l', rb.seqLog = .ok l ∧ rb.timedLog = .ok l' ∧
      r.events = (l.adds ++ l'.adds).foldl Events.push {} ∧ r.presses = l.presses ++ l'.presses := by
  rw [afterPresses_eq] at h
  obtain ⟨m, h1, h2⟩ := Py.bind_eq_ok.1 h
  cases h2
  unfold queueLog at h1
  obtain ⟨l, h3, h1⟩ := Py.bind_eq_ok.1 h1
  obtain ⟨l', h4, h1⟩ := Py.bind_eq_ok.1 h1
  cases h1
  obtain ⟨e1, e2, e3, e4, e5, e6, e7, e8, e9, e10, e11, e12, e13, e14, _⟩ := start_fields rb
  rw [seqLog_congr (start_basis rb) e11] at h3
  rw [timedLog_congr (start_basis rb) e10] at h4
  refine ⟨l, l', h3, h4, ?_, ?_⟩
  · change (l.app l').adds.foldl Events.push rb.start.events = _
    rw [e14]
    rfl
  · change rb.start.presses ++ (l.app l').presses = _
    rw [e13]
    rfl

theorem afterPresses_of_parts {rb : RotationBuilder} {l l' : Log} (h : rb.seqLog = .ok l)
    (h' : rb.timedLog = .ok l') : ∃ r, afterPresses rb = .ok r := by
  rw [afterPresses_eq]
  obtain ⟨e1, e2, e3, e4, e5, e6, e7, e8, e9, e10, e11, _⟩ := start_fields rb
  unfold queueLog
  rw [seqLog_congr (start_basis rb) e11, timedLog_congr (start_basis rb) e10, h, h']
  exact ⟨_, rfl⟩

end RotationBuilder

end Ama
