import Verif.Lemmas.DamageConditions
import Verif.Lemmas.Gauges

/-!
# Histories of combos and gauges in executions of the damage builder
-/

namespace Ama

open Spec DamageBuilder

/-- An event as the rotation builder makes it, or a part of one that was split. -/
def Known (e : Event) : Prop :=
  Untouched e ∨ (e.secondary = none ∧ e.jobResourcesAdded = true ∧ e.comboConditionalProcessed = true)

/-- The events of an execution that were not split off. -/
def firsts (tr : List (DamageState × Event)) : List Event :=
  (tr.map Prod.snd).filter (fun e => !e.comboConditionalProcessed)

theorem Known.same {e : Event} (h : Known e) : e.jobResourcesAdded = e.comboConditionalProcessed := by
  rcases h with h | ⟨-, h1, h2⟩
  · rw [h.change, h.combo]
  · rw [h1, h2]

theorem Known.untouched {e : Event} (h : Known e) (hc : e.comboConditionalProcessed = false) :
    Untouched e := by
  rcases h with h | ⟨-, -, h2⟩
  · exact h
  · rw [hc] at h2
    cases h2

theorem forall₂_mem_both {A B : Type} {R : A → B → Prop} {as : List A} {bs : List B}
    (h : List.Forall₂ R as bs) {b : B} (hb : b ∈ bs) : ∃ a ∈ as, R a b := by
  induction h with
  | nil => simp at hb
  | cons h1 _ ih =>
    rcases List.mem_cons.1 hb with rfl | hb
    · exact ⟨_, by simp, h1⟩
    · obtain ⟨a, h2, h3⟩ := ih hb
      exact ⟨a, List.mem_cons_of_mem _ h2, h3⟩

/-- The queue after an iteration. -/
theorem processEvent_known {s s' : DamageState} {e : Event} (ho : s.events.Ok)
    (hk : Known e) (h : processEvent s e = .ok s') :
    s'.events.Ok ∧ ∃ es : List Event, s'.events.q.Perm (s.events.q ++ es) ∧
      ∀ e' ∈ es, Known e' ∧ e'.comboConditionalProcessed = true := by
  cases hsec : e.secondary with
  | none =>
    obtain ⟨h1, -⟩ := apply_step hsec h
    rw [h1]
    exact ⟨ho, [], by simp, by simp⟩
  | some sec =>
    obtain ⟨h1, -, m, mg, g, out, pos, buffs, cb, es, prio, -, -, -, -, hes, hq⟩ := snap_step ho hsec h
    refine ⟨h1, es, hq, fun e' he' => ?_⟩
    obtain ⟨ti, -, ha, p1, p2, p3, -⟩ := forall₂_mem_both hes he'
    have hu : Untouched e := by
      rcases hk with hk | ⟨hk, -⟩
      · exact hk
      · rw [hsec] at hk
        cases hk
    have hc : e'.comboConditionalProcessed = true := by simp [p3, hu.combo]
    exact ⟨.inr ⟨ha.2.2.1, p1, hc⟩, hc⟩

/-- In an execution every event of the queue has its turn exactly once. -/
theorem reaches_firsts {s s' : DamageState} {tr : List (DamageState × Event)} (h : Reaches s tr s')
    (ho : s.events.Ok) (hend : s'.events.q = []) (hk : ∀ b ∈ s.events.q, Known b) :
    (firsts tr).Perm (s.events.q.filter (fun e => !e.comboConditionalProcessed)) ∧
      ∀ p ∈ tr, Known p.2 := by
  induction h with
  | refl s =>
    rw [hend]
    exact ⟨.refl _, by simp⟩
  | step s s1 s2 e evs tr h1 h2 h3 ih =>
    obtain ⟨o1, o2, -, -⟩ := Events.getNext_spec ho h1
    have hke : Known e := hk e (o2.mem_iff.2 (by simp))
    obtain ⟨q1, es, q2, q3⟩ := processEvent_known (s := { s with events := evs }) o1 hke h2
    obtain ⟨i1, i2⟩ := ih q1 hend (fun b hb => by
      rcases List.mem_append.1 (q2.mem_iff.1 hb) with hb | hb
      · exact hk b (o2.mem_iff.2 (List.mem_cons_of_mem _ hb))
      · exact (q3 b hb).1)
    refine ⟨?_, ?_⟩
    · have e1 := i1.trans (q2.filter _)
      have e2 : es.filter (fun e => !e.comboConditionalProcessed) = [] :=
        List.filter_eq_nil_iff.2 (fun b hb => by simp [(q3 b hb).2])
      rw [List.filter_append, e2, List.append_nil] at e1
      refine List.Perm.trans ?_ (o2.filter _).symm
      unfold firsts at e1 ⊢
      simp only [List.map_cons, List.filter_cons]
      split_ifs
      · exact e1.cons _
      · exact e1
    · intro p hp
      rcases List.mem_cons.1 hp with rfl | hp
      · exact hke
      · exact i2 p hp

/-- The history of the combos of an execution. -/
theorem reaches_combos {s s' : DamageState} {tr : List (DamageState × Event)} (h : Reaches s tr s')
    (ho : s.events.Ok) :
    ∃ log : List (Event × SkillModifier × String), log.map (·.1) = firsts tr ∧
      (∀ l ∈ log, Widens l.1.modifier l.2.1) ∧
      runCombo s.db.combo (log.map fun l => ⟨l.1.primary, l.1.skill.toSkillCore, l.2.1⟩) =
        .ok (log.map (·.2.2), s'.db.combo) ∧
      ∀ p ∈ tr, p.2.comboConditionalProcessed = false → ∀ m out r,
        comboModifier p.1 p.2 = .ok m →
        p.1.db.combo.compileAndUpdate p.2.primary p.2.skill.toSkillCore m = .ok (out, r) →
        (p.2, m, out) ∈ log := by
  induction h with
  | refl s => exact ⟨[], rfl, by simp, rfl, by simp⟩
  | step s s1 s2 e evs tr h1 h2 h3 ih =>
    obtain ⟨o1, -, -, -⟩ := Events.getNext_spec ho h1
    obtain ⟨m, mg, g, out, pos, hst⟩ := step_of_ok (s := { s with events := evs }) o1 h2
    obtain ⟨log, i1, i2, i3, i4⟩ := ih (processEvent_queue (s := { s with events := evs }) o1 h2).1
    have hc := hst.combo
    cases hb : e.comboConditionalProcessed with
    | true =>
      simp only [hb, if_true] at hc
      refine ⟨log, ?_, i2, ?_, ?_⟩
      · rw [i1]
        simp [firsts, hb]
      · rw [← hc.2.2]
        exact i3
      · intro p hp hf
        rcases List.mem_cons.1 hp with rfl | hp
        · simp only at hf
          rw [hb] at hf
          cases hf
        · exact i4 p hp hf
    | false =>
      simp only [hb, Bool.false_eq_true, if_false] at hc
      refine ⟨(e, m, out) :: log, ?_, ?_, ?_, ?_⟩
      · simp [firsts, hb]
        rw [i1]
        rfl
      · intro l hl
        rcases List.mem_cons.1 hl with rfl | hl
        · exact hst.widens
        · exact i2 l hl
      · simp only [List.map_cons, runCombo]
        rw [hc.1]
        simp only [Py.ok_bind]
        rw [i3]
        rfl
      · intro p hp hf m' out' r' hm' hc'
        rcases List.mem_cons.1 hp with rfl | hp
        · have e1 := hst.modifier.symm.trans hm'
          cases e1
          have e2 := hc.1.symm.trans hc'
          cases e2
          simp
        · exact List.mem_cons_of_mem _ (i4 p hp hf m' out' r' hm' hc')

theorem runGauge_append {tr tr1 tr2 : JobResourceTracker} {a b : List GaugeOp}
    (h1 : runGauge tr a = .ok tr1) (h2 : runGauge tr1 b = .ok tr2) :
    runGauge tr (a ++ b) = .ok tr2 := by
  induction a generalizing tr with
  | nil => cases h1; exact h2
  | cons op a ih =>
    cases op with
    | add t skill m =>
      simp only [List.cons_append, runGauge] at h1 ⊢
      obtain ⟨r, e1, e2⟩ := Py.bind_eq_ok.1 h1
      rw [e1]
      exact ih e2
    | query t name =>
      simp only [List.cons_append, runGauge] at h1 ⊢
      obtain ⟨r, e1, e2⟩ := Py.bind_eq_ok.1 h1
      rw [e1]
      exact ih e2

/-- The call that changes the gauges. -/
def changeOp (a : Event × SkillModifier) : GaugeOp := .add a.1.primary a.1.skill.toSkillCore a.2

/-- The history of the gauges of an execution. -/
theorem reaches_gauges {s s' : DamageState} {tr : List (DamageState × Event)} (h : Reaches s tr s')
    (ho : s.events.Ok) (hk : ∀ p ∈ tr, Known p.2) :
    ∃ adds : List (Event × SkillModifier), adds.map (·.1) = firsts tr ∧
      (∀ a ∈ adds, Widens a.1.modifier a.2) ∧
      (∃ ops, ops.filter (·.isAdd) = adds.map changeOp ∧ runGauge s.db.res ops = .ok s'.db.res) ∧
      ∀ l p r, tr = l ++ p :: r → ∃ before after, adds = before ++ after ∧
        before.map (·.1) = firsts l ∧ after.map (·.1) = firsts (p :: r) ∧
        ∃ ops, ops.filter (·.isAdd) = before.map changeOp ∧
          runGauge s.db.res ops = .ok p.1.db.res := by
  induction h with
  | refl s =>
    refine ⟨[], rfl, by simp, ⟨[], rfl, rfl⟩, ?_⟩
    intro l p r hl
    simp at hl
  | step s s1 s2 e evs tr h1 h2 h3 ih =>
    obtain ⟨o1, -, -, -⟩ := Events.getNext_spec ho h1
    obtain ⟨m, mg, g, out, pos, hst⟩ := step_of_ok (s := { s with events := evs }) o1 h2
    obtain ⟨adds, i1, i2, ⟨iops, i3, i3'⟩, i4⟩ :=
      ih (processEvent_queue (s := { s with events := evs }) o1 h2).1
        (fun p hp => hk p (List.mem_cons_of_mem _ hp))
    have hke : e.jobResourcesAdded = e.comboConditionalProcessed := (hk _ (List.mem_cons_self ..)).same
    obtain ⟨r, hg1, hg2⟩ := hst.gauge
    -- the calls of this iteration
    obtain ⟨q, hq1, hq2⟩ : ∃ q : List GaugeOp, q.filter (·.isAdd) = [] ∧
        runGauge s.db.res q = .ok r := by
      split_ifs at hg1
      · refine ⟨[.query e.primary e.skill.name], rfl, ?_⟩
        simp only [runGauge]
        rw [hg1]
        rfl
      · exact ⟨[], rfl, by rw [hg1.2]; rfl⟩
    obtain ⟨now, hn1, hn2, ops0, hn3, hn4⟩ : ∃ now : List (Event × SkillModifier),
        now.map (·.1) = ([e].filter (fun e => !e.comboConditionalProcessed)) ∧
        (∀ a ∈ now, Widens a.1.modifier a.2) ∧ ∃ ops0 : List GaugeOp,
        ops0.filter (·.isAdd) = now.map changeOp ∧ runGauge s.db.res ops0 = .ok s1.db.res := by
      cases hb : e.comboConditionalProcessed with
      | true =>
        rw [hke, hb] at hg2
        simp only [if_true] at hg2
        exact ⟨[], by simp [hb], by simp, q, by simpa using hq1, by rw [hg2]; exact hq2⟩
      | false =>
        rw [hke, hb] at hg2
        simp only [Bool.false_eq_true, if_false] at hg2
        refine ⟨[(e, mg)], by simp [hb], ?_, q ++ [changeOp (e, mg)], ?_, ?_⟩
        · intro a ha
          rw [List.mem_singleton.1 ha]
          exact hst.widensChange
        · rw [List.filter_append, hq1]
          rfl
        · refine runGauge_append hq2 ?_
          simp only [runGauge, changeOp]
          rw [hg2]
          rfl
    have hfirst : ∀ l : List (DamageState × Event),
        firsts ((({ s with events := evs } : DamageState), e) :: l) = now.map (·.1) ++ firsts l := by
      intro l
      rw [hn1]
      unfold firsts
      rw [List.map_cons, ← List.singleton_append, List.filter_append]
    refine ⟨now ++ adds, ?_, ?_, ⟨ops0 ++ iops, ?_, runGauge_append hn4 i3'⟩, ?_⟩
    · rw [List.map_append, i1, hfirst]
    · intro a ha
      rcases List.mem_append.1 ha with ha | ha
      · exact hn2 a ha
      · exact i2 a ha
    · rw [List.filter_append, List.map_append, hn3, i3]
    · intro l p r hl
      cases l with
      | nil =>
        simp only [List.nil_append, List.cons.injEq] at hl
        obtain ⟨rfl, rfl⟩ := hl
        refine ⟨[], now ++ adds, rfl, rfl, ?_, [], rfl, rfl⟩
        rw [List.map_append, i1, hfirst]
      | cons p0 l =>
        simp only [List.cons_append, List.cons.injEq] at hl
        obtain ⟨rfl, hl⟩ := hl
        obtain ⟨before, after, j1, j2, j3, ops, j4, j5⟩ := i4 l p r hl
        refine ⟨now ++ before, after, by rw [j1, List.append_assoc], ?_, j3, ops0 ++ ops, ?_,
          runGauge_append hn4 j5⟩
        · rw [List.map_append, j2, hfirst]
        · rw [List.filter_append, List.map_append, hn3, j4]

theorem firsts_sorted {tr : List (DamageState × Event)}
    (h : tr.Pairwise (fun p p' => p.2.primary ≤ p'.2.primary)) :
    (firsts tr).Pairwise (fun a b => a.primary ≤ b.primary) := by
  unfold firsts
  exact List.Pairwise.filter _ (List.pairwise_map.2 h)

theorem mem_firsts {tr : List (DamageState × Event)} {e : Event} (h : e ∈ firsts tr) :
    ∃ s, (s, e) ∈ tr := by
  unfold firsts at h
  obtain ⟨p, h1, h2⟩ := List.mem_map.1 (List.mem_filter.1 h).1
  exact ⟨p.1, by rw [← h2]; exact h1⟩

/-- A timeline made by a rotation builder is untouched. -/
theorem timing_untouched {rb rb' : RotationBuilder} {fuel : ℕ} (h : rb.getSkillTiming fuel = .ok rb') :
    ∀ e ∈ rb'.events.q, Untouched e := by
  obtain ⟨r⟩ := RotationBuilder.run_of_ok h
  have hfin := r.finished
  unfold RotationBuilder.finish at hfin
  obtain ⟨rb2, h1, hfin⟩ := Py.bind_eq_ok.1 hfin
  obtain ⟨rb3, h2, hfin⟩ := Py.bind_eq_ok.1 hfin
  cases hfin
  have hg2 : rb2.events.Good := by
    unfold RotationBuilder.shiftIfNeeded at h1
    split_ifs at h1
    · rcases RotationBuilder.shift_spec r.good h1 with ⟨_, rfl⟩ | ⟨_, _, _, _, _, h5⟩
      · exact r.good
      · exact h5
    · cases h1
      exact r.good
  obtain ⟨out, as, -, -, -, k3, rfl⟩ := RotationBuilder.removeDamage_spec hg2 h2
  intro e he
  obtain ⟨a, ha, hb⟩ := mem_pushes he
  obtain ⟨e1, he1, x, hx, hax⟩ := (RotationBuilder.mem_flatM k3).1 ha
  obtain ⟨ts, -, -, rfl⟩ := RotationBuilder.mem_keepOne hx hax
  obtain ⟨-, -, -, -, -, h6, h7, h8, -⟩ := hb
  exact ⟨h7, h6, h8⟩

end Ama
