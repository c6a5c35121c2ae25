import Verif.Spec.Presses
import Verif.Lemmas.BuilderPresses
import Verif.Lemmas.BuilderProcess
import Verif.Lemmas.DamageConditions
import Verif.Lemmas.DamageLogs

/-!
# Lemmas: what the presses of a rotation ask of the trackers
-/

namespace Ama

open Spec

theorem runEffects_append {tr tr1 tr2 : StatusEffectTracker} {a b : List TrackerOp}
    (h1 : runEffects tr a = .ok tr1) (h2 : runEffects tr1 b = .ok tr2) :
    runEffects tr (a ++ b) = .ok tr2 := by
  induction a generalizing tr with
  | nil =>
    cases h1
    exact h2
  | cons op a ih =>
    unfold runEffects at h1
    obtain ⟨⟨o, tr'⟩, g1, h1⟩ := Py.bind_eq_ok.1 h1
    rw [List.cons_append]
    unfold runEffects
    rw [g1]
    exact ih h1

theorem runEffects_split {tr tr2 : StatusEffectTracker} {a b : List TrackerOp}
    (h : runEffects tr (a ++ b) = .ok tr2) :
    ∃ tr1, runEffects tr a = .ok tr1 ∧ runEffects tr1 b = .ok tr2 := by
  induction a generalizing tr with
  | nil => exact ⟨tr, rfl, h⟩
  | cons op a ih =>
    rw [List.cons_append] at h
    unfold runEffects at h
    obtain ⟨⟨o, tr'⟩, g1, h⟩ := Py.bind_eq_ok.1 h
    obtain ⟨tr1, k1, k2⟩ := ih h
    refine ⟨tr1, ?_, k2⟩
    unfold runEffects
    rw [g1]
    exact k1

namespace RotationBuilder

/-! ## One use -/

theorem followUps_trackers (snap app : ℚ) (targets : List String) (fs : List (FollowUp × ℕ))
    (tr tr' : Trackers) (l : Log) (h : foldLog (followUpLog snap app targets) tr fs = .ok (l, tr')) :
    let later := ((fs.map Prod.fst).filter (fun f => f.dotDuration.isNone)).map (fun f =>
      (app + (f.delayAfterParentApplication : ℚ), f.skill,
        if f.primaryTargetOnly then targets.take 1 else targets))
    runEffects tr.se (later.map (fun x => .add x.1 x.2.1 {} x.2.2)) = .ok tr'.se ∧
      runGauge tr.res (later.map (fun x => .add x.1 x.2.1 {})) = .ok tr'.res := by
  induction fs generalizing tr l with
  | nil =>
    cases h
    exact ⟨rfl, rfl⟩
  | cons fi fs ih =>
    unfold foldLog at h
    obtain ⟨⟨l1, tr1⟩, h1, h⟩ := Py.bind_eq_ok.1 h
    obtain ⟨⟨l2, tr2⟩, h2, h⟩ := Py.bind_eq_ok.1 h
    cases h
    have ih := ih _ _ h2
    unfold followUpLog at h1
    by_cases hd : fi.1.dotDuration.isSome = true
    · simp only [hd, if_true, Except.ok.injEq, Prod.mk.injEq] at h1
      obtain ⟨rfl, rfl⟩ := h1
      have hd' : fi.1.dotDuration.isNone = false := by
        cases hx : fi.1.dotDuration with
        | none =>
          rw [hx] at hd
          cases hd
        | some _ => rfl
      simp only [List.map_cons, List.filter_cons, hd', Bool.false_eq_true, if_false]
      exact ih
    · have hd' : fi.1.dotDuration.isNone = true := by
        cases hx : fi.1.dotDuration with
        | none => rfl
        | some _ =>
          rw [hx] at hd
          exact absurd rfl hd
      simp only [hd, if_false, Bool.false_eq_true] at h1
      obtain ⟨ts, ht, h1⟩ : ∃ ts, ts = (if fi.1.primaryTargetOnly then targets.take 1 else targets) ∧
          (tr.se.add (app + ↑fi.1.delayAfterParentApplication) fi.1.skill {} ts >>= fun se =>
            tr.res.addResource (app + ↑fi.1.delayAfterParentApplication) fi.1.skill {} >>=
            fun res => (pure (({ adds := [followUpEvent fi.1 (↑fi.2 + 1) snap app ts] } : Log),
              ({ se := se, res := res } : Trackers)) : Py _)) = .ok (l1, tr1) := by
        by_cases hp : fi.1.primaryTargetOnly = true
        · simp only [hp, if_true] at h1 ⊢
          obtain ⟨x, hx, h1⟩ := Py.bind_eq_ok.1 h1
          obtain ⟨_, _, h3⟩ := pyIdx_zero hx
          rw [h3]
          exact ⟨_, rfl, h1⟩
        · simp only [hp, if_false, Bool.false_eq_true] at h1 ⊢
          exact ⟨_, rfl, h1⟩
      obtain ⟨se, g1, h1⟩ := Py.bind_eq_ok.1 h1
      obtain ⟨res, g2, h1⟩ := Py.bind_eq_ok.1 h1
      cases h1
      simp only [List.map_cons, List.filter_cons, hd', if_true, ← ht]
      constructor
      · unfold runEffects TrackerOp.exec
        change (tr.se.add _ _ _ _ >>= _ >>= _) = _
        rw [g1]
        exact ih.1
      · unfold runGauge
        rw [g2]
        exact ih.2

theorem applicationTimeOf_spec {t cast a : ℚ} {m : SkillModifier} {timing : Option TimingSpec}
    (g3 : applicationTimeOf t cast m timing = .ok a) :
    (∀ ts, timing = some ts → a = appliesAt t cast m ts) ∧ (timing = none → a = t + cast) := by
  constructor
  · rintro ts rfl
    unfold applicationTimeOf at g3
    unfold appliesAt
    by_cases hi : m.ignoreApplicationDelay = true
    · rw [if_pos hi] at g3 ⊢
      cases g3
      rfl
    · rw [if_neg hi] at g3 ⊢
      cases g3
      by_cases hc : cast > 1 / 1000000
      · simp only [hc, if_true, GameConsts.DAMAGE_SNAPSHOT_TIME_BEFORE_CAST_FINISHES]
        congr 2
        push_cast
        ring
      · simp only [hc, if_false]
  · rintro rfl
    unfold applicationTimeOf at g3
    split_ifs at g3
    cases g3
    rfl

/-- Everything one use asks of the trackers. -/
structure TrackedStep (tr : Trackers) (combo : ComboTracker) (u : Pressed) (tr' : Trackers)
    (combo' : ComboTracker) : Prop where
  effects : ∃ se1 se2,
    (tr.se.expire u.t).compileBuffs u.t u.skill.toSkillCore = .ok ((u.buffs, u.buffConds), se1) ∧
    se1.compileDebuffs u.t u.skill.toSkillCore = .ok ((u.debuffs, u.debuffConds), se2) ∧
    runEffects se2 u.effectOps = .ok tr'.se
  gauges : ∃ res1, tr.res.compile u.t u.skill.name = .ok (u.gauge, res1) ∧
    runGauge res1 u.gaugeOps = .ok tr'.res
  combo : combo.compileAndUpdate u.t u.skill.toSkillCore u.beforeCombo = .ok (u.combo, combo')

/-- Everything one use asks of the trackers and records. -/
structure PressedStep (rb : RotationBuilder) (tr : Trackers) (combo : ComboTracker) (u : Pressed)
    (rb' : RotationBuilder) (tr' : Trackers) (combo' : ComboTracker) : Prop
    extends TrackedStep tr combo u tr' combo' where
  proper : u.Proper rb.stats
  ok : rb'.events.Ok
  events : ∃ evs, u.Makes evs ∧ rb'.events.q.Perm (evs ++ rb.events.q)
  stats : rb'.stats = rb.stats
  kept : rb'.lib = rb.lib ∧ rb'.priority = rb.priority ∧ rb'.qTimed = rb.qTimed

theorem addToCondition_eq (m : SkillModifier) (c : String) :
    m.addToCondition c = { m with withCondition := m.withCondition ∪ textConds c } := by
  unfold SkillModifier.addToCondition textConds
  split_ifs
  · cases m
    simp
  · rfl

theorem addPositional_eq {skill : Skill} {m m' : SkillModifier}
    (h : Utils.addPositional skill m = .ok m') :
    ∃ pos, PositionalAdds skill m pos ∧ m' = { m with withCondition := m.withCondition ∪ pos } := by
  unfold Utils.addPositional at h
  split at h
  · rename_i c hc
    cases h
    refine ⟨_, .inl ⟨c, hc, rfl⟩, ?_⟩
    unfold SkillModifier.addConditions
    split_ifs
    · cases m
      simp
    · rfl
  · rename_i hc
    cases h
    exact ⟨∅, .inr ⟨hc, rfl⟩, by cases m; simp⟩
  · cases h

theorem pressedStep {rb rb' : RotationBuilder} {t : ℚ} {skill : Skill} {m : SkillModifier}
    {targets : List String} {tr tr' : Trackers} {combo : ComboTracker} {r : Resolved}
    (hq : rb.events.Ok) (h1 : resolve t skill m tr combo = .ok r)
    (h2 : rb.processSkill t skill r.modifier r.tr r.buffs targets = .ok (rb', tr')) :
    ∃ u : Pressed, u.t = t ∧ u.skill = skill ∧ u.asked = m ∧ u.targets = targets ∧
      u.modifier = r.modifier ∧ u.buffs = r.buffs ∧ u.debuffs = r.debuffs ∧
      PressedStep rb tr combo u rb' tr' r.combo := by
  obtain ⟨timing, cast, application, fs, g1, g2, g3, g4, g5, ⟨main, new, g6, g7, g8⟩, -⟩ :=
    processSkill_spec hq h2
  rw [processSkill_eq] at h2
  obtain ⟨⟨l, tr1⟩, k1, k2⟩ := Py.bind_eq_ok.1 h2
  cases k2
  unfold processSkillLog at k1
  obtain ⟨timing', a1, k1⟩ := Py.bind_eq_ok.1 k1
  rw [g1] at a1
  cases a1
  obtain ⟨cast', a2, k1⟩ := Py.bind_eq_ok.1 k1
  rw [g2] at a2
  cases a2
  obtain ⟨application', a3, k1⟩ := Py.bind_eq_ok.1 k1
  have ha : application' = application := by
    obtain ⟨b1, b2⟩ := applicationTimeOf_spec a3
    cases timing with
    | none => rw [b2 rfl, g4 rfl]
    | some ts => rw [b1 ts rfl, g3 ts rfl]
  subst ha
  obtain ⟨se, a4, k1⟩ := Py.bind_eq_ok.1 k1
  obtain ⟨res, a5, k1⟩ := Py.bind_eq_ok.1 k1
  obtain ⟨fs', a6, k1⟩ := Py.bind_eq_ok.1 k1
  rw [g5] at a6
  cases a6
  obtain ⟨⟨l1, tr2⟩, a7, k1⟩ := Py.bind_eq_ok.1 k1
  simp only [Py.pure_eq, Except.ok.injEq, Prod.mk.injEq] at k1
  obtain ⟨-, rfl⟩ := k1
  unfold resolve at h1
  obtain ⟨⟨b, d, m1, tr3⟩, c1, h1⟩ := Py.bind_eq_ok.1 h1
  obtain ⟨⟨cc, combo1⟩, c2, h1⟩ := Py.bind_eq_ok.1 h1
  obtain ⟨m2, c3, h1⟩ := Py.bind_eq_ok.1 h1
  cases h1
  unfold resolveConditions at c1
  obtain ⟨⟨⟨b1, cb⟩, se1⟩, d1, c1⟩ := Py.bind_eq_ok.1 c1
  obtain ⟨⟨⟨b2, cd⟩, se2⟩, d2, c1⟩ := Py.bind_eq_ok.1 c1
  obtain ⟨⟨cg, res1⟩, d3, c1⟩ := Py.bind_eq_ok.1 c1
  cases c1
  obtain ⟨pos, p1, p2⟩ := addPositional_eq c3
  simp only [addToCondition_eq] at c2 p1 p2 
  refine ⟨{ t := t, skill := skill, asked := m, targets := targets, buffs := b, debuffs := d,
            buffConds := cb, debuffConds := cd, gauge := cg, combo := cc, positional := pos,
            timing := timing, cast := cast, application := application', followUps := fs },
    rfl, rfl, rfl, rfl, p2.symm, rfl, rfl, ?_⟩
  have hfst : fs.zipIdx.map Prod.fst = fs := by simp
  have hsn : t + max 0 (cast - GameConsts.DAMAGE_SNAPSHOT_TIME_BEFORE_CAST_FINISHES) =
      snapshotsAt t cast := by
    simp [GameConsts.DAMAGE_SNAPSHOT_TIME_BEFORE_CAST_FINISHES, snapshotsAt]
  obtain ⟨f1, f2⟩ := followUps_trackers _ _ _ _ _ _ _ a7
  rw [hfst] at f1 f2
  subst p2
  refine ⟨⟨⟨se1, se2, d1, d2, ?_⟩, ⟨res1, d3, ?_⟩, c2⟩, ⟨p1, g1, g2, g3, g4, g5⟩, ?_,
    ⟨main :: new, ⟨main, new, rfl, g6, g7⟩, g8⟩, rfl, rfl, rfl, rfl⟩
  · exact Py.bind_eq_ok.2 ⟨_, Py.bind_eq_ok.2 ⟨_, a4, rfl⟩, f1⟩
  · rw [hsn] at a5
    exact Py.bind_eq_ok.2 ⟨_, a5, f2⟩
  · exact (pushes_spec l.adds rb.events hq).1

/-! ## Lists of uses -/

/-- Uses one after the other. -/
inductive PressedSteps : RotationBuilder → Trackers → ComboTracker → List Pressed →
    RotationBuilder → Trackers → ComboTracker → Prop
  | nil (rb : RotationBuilder) (tr : Trackers) (combo : ComboTracker) :
    PressedSteps rb tr combo [] rb tr combo
  | cons (rb rb1 rb2 : RotationBuilder) (tr tr1 tr2 : Trackers) (c c1 c2 : ComboTracker) (u : Pressed)
      (us : List Pressed) : PressedStep rb tr c u rb1 tr1 c1 → PressedSteps rb1 tr1 c1 us rb2 tr2 c2 →
    PressedSteps rb tr c (u :: us) rb2 tr2 c2

/-- Uses one after the other, as the trackers see them. -/
inductive TrackedSteps : Trackers → ComboTracker → List Pressed → Trackers → ComboTracker → Prop
  | nil (tr : Trackers) (combo : ComboTracker) : TrackedSteps tr combo [] tr combo
  | cons (tr tr1 tr2 : Trackers) (c c1 c2 : ComboTracker) (u : Pressed) (us : List Pressed) :
    TrackedStep tr c u tr1 c1 → TrackedSteps tr1 c1 us tr2 c2 → TrackedSteps tr c (u :: us) tr2 c2

section
variable {rb rb' : RotationBuilder} {tr tr' : Trackers} {c c' : ComboTracker} {us : List Pressed}

theorem PressedSteps.stats (h : PressedSteps rb tr c us rb' tr' c') :
    rb'.stats = rb.stats ∧ ∀ u ∈ us, u.Proper rb.stats := by
  induction h with
  | nil => simp
  | cons _ _ _ _ _ _ _ _ _ u us h1 _ ih =>
    rw [h1.stats] at ih
    refine ⟨ih.1, ?_⟩
    intro v hv
    rcases List.mem_cons.1 hv with rfl | hv
    · exact h1.proper
    · exact ih.2 v hv

theorem PressedSteps.tracked (h : PressedSteps rb tr c us rb' tr' c') :
    TrackedSteps tr c us tr' c' := by
  induction h with
  | nil => exact .nil _ _
  | cons _ _ _ _ _ _ _ _ _ u us h1 _ ih => exact .cons _ _ _ _ _ _ _ _ h1.toTrackedStep ih

theorem PressedSteps.kept (h : PressedSteps rb tr c us rb' tr' c') :
    rb'.lib = rb.lib ∧ rb'.priority = rb.priority ∧ rb'.qTimed = rb.qTimed := by
  induction h with
  | nil => simp
  | cons _ _ _ _ _ _ _ _ _ u us h1 _ ih =>
    obtain ⟨k1, k2, k3⟩ := h1.kept
    rw [k1, k2, k3] at ih
    exact ih

theorem TrackedSteps.combos (h : TrackedSteps tr c us tr' c') :
    runCombo c (us.map fun u => ⟨u.t, u.skill.toSkillCore, u.beforeCombo⟩) =
      .ok (us.map (·.combo), c') := by
  induction h with
  | nil => rfl
  | cons _ _ _ _ _ _ u us h1 _ ih =>
    simp only [List.map_cons]
    unfold runCombo
    rw [h1.combo]
    simp only [Py.ok_bind]
    rw [ih]
    rfl

theorem TrackedSteps.gauges (h : TrackedSteps tr c us tr' c') :
    ∀ l u r, us = l ++ u :: r → ∃ ops x x', ops.filter (·.isAdd) = l.flatMap Pressed.gaugeOps ∧
      runGauge tr.res ops = .ok x ∧ x.compile u.t u.skill.name = .ok (u.gauge, x') := by
  induction h with
  | nil => simp
  | cons tr _ _ _ _ _ v us h1 _ ih =>
    intro l u r hl
    obtain ⟨res1, g1, g2⟩ := h1.gauges
    cases l with
    | nil =>
      simp only [List.nil_append, List.cons.injEq] at hl
      obtain ⟨rfl, rfl⟩ := hl
      exact ⟨[], _, _, rfl, rfl, g1⟩
    | cons w l =>
      simp only [List.cons_append, List.cons.injEq] at hl
      obtain ⟨rfl, rfl⟩ := hl
      obtain ⟨ops, x, x', k1, k2, k3⟩ := ih l u r rfl
      refine ⟨.query v.t v.skill.name :: (v.gaugeOps ++ ops), x, x', ?_, ?_, k3⟩
      · have hf : v.gaugeOps.filter (·.isAdd) = v.gaugeOps := by
          rw [List.filter_eq_self]
          intro op hop
          unfold Pressed.gaugeOps at hop
          rcases List.mem_cons.1 hop with rfl | hop
          · rfl
          · obtain ⟨y, -, rfl⟩ := List.mem_map.1 hop
            rfl
        rw [List.filter_cons_of_neg (by simp [GaugeOp.isAdd]), List.filter_append, hf, k1]
        rfl
      · unfold runGauge
        rw [g1]
        exact runGauge_append g2 k2

theorem TrackedSteps.effects (h : TrackedSteps tr c us tr' c') :
    ∀ l u r, us = l ++ u :: r → ∃ x x₁ x₂, runEffects tr.se (l.flatMap Pressed.history) = .ok x ∧
      (x.expire u.t).compileBuffs u.t u.skill.toSkillCore = .ok ((u.buffs, u.buffConds), x₁) ∧
      x₁.compileDebuffs u.t u.skill.toSkillCore = .ok ((u.debuffs, u.debuffConds), x₂) := by
  induction h with
  | nil => simp
  | cons tr _ _ _ _ _ v us h1 _ ih =>
    intro l u r hl
    obtain ⟨se1, se2, g1, g2, g3⟩ := h1.effects
    cases l with
    | nil =>
      simp only [List.nil_append, List.cons.injEq] at hl
      obtain ⟨rfl, rfl⟩ := hl
      exact ⟨_, _, _, rfl, g1, g2⟩
    | cons w l =>
      simp only [List.cons_append, List.cons.injEq] at hl
      obtain ⟨rfl, rfl⟩ := hl
      obtain ⟨x, x₁, x₂, k1, k2, k3⟩ := ih l u r rfl
      refine ⟨x, x₁, x₂, ?_, k2, k3⟩
      rw [List.flatMap_cons]
      refine runEffects_append ?_ k1
      unfold Pressed.history
      simp only [List.cons_append, List.nil_append, runEffects, TrackerOp.exec, Py.ok_bind, g1, g2,
        Py.pure_eq]
      exact g3

theorem PressedSteps.events (hok : rb.events.Ok) (h : PressedSteps rb tr c us rb' tr' c') :
    rb'.events.Ok ∧ ∃ evss, List.Forall₂ Pressed.Makes us evss ∧
      rb'.events.q.Perm (evss.flatten ++ rb.events.q) := by
  induction h with
  | nil => exact ⟨hok, [], .nil, .refl _⟩
  | cons _ _ _ _ _ _ _ _ _ v us h1 _ ih =>
    obtain ⟨k0, evss, k1, k2⟩ := ih h1.ok
    obtain ⟨evs, g1, g2⟩ := h1.events
    refine ⟨k0, evs :: evss, .cons g1 k1, k2.trans ?_⟩
    rw [List.flatten_cons]
    refine ((g2.append_left _).trans ?_)
    rw [← List.append_assoc]
    exact List.perm_append_comm.append_right _

end

/-! ## The queues -/

theorem timedSteps {s s' : LoopState} {order : List TimedPress} (hok : s.rb.events.Ok)
    (h : order.foldlM timedStep s = .ok s') :
    ∃ us, List.Forall₂ (fun (p : TimedPress) (u : Pressed) => u.t = p.t ∧ u.skill = p.skill ∧
        u.asked = p.modifier ∧ u.targets = p.targets) order us ∧
      PressedSteps s.rb s.tr s.combo us s'.rb s'.tr s'.combo := by
  induction order generalizing s with
  | nil =>
    cases h
    exact ⟨[], .nil, .nil _ _ _⟩
  | cons p order ih =>
    rw [Py.foldlM_cons] at h
    obtain ⟨s1, h1, h⟩ := Py.bind_eq_ok.1 h
    unfold timedStep at h1
    obtain ⟨r, g1, h1⟩ := Py.bind_eq_ok.1 h1
    obtain ⟨rb1, g2, h1⟩ := Py.bind_eq_ok.1 h1
    obtain ⟨⟨rb2, tr2⟩, g3, h1⟩ := Py.bind_eq_ok.1 h1
    cases h1
    unfold recordTarget at g2
    obtain ⟨x, -, g2⟩ := Py.bind_eq_ok.1 g2
    cases g2
    obtain ⟨u, u1, u2, u3, u4, u5, -, -, hs⟩ := pressedStep (by exact hok) g1 g3
    obtain ⟨us, k1, k2⟩ := ih (by exact hs.ok) h
    refine ⟨u :: us, .cons ⟨u1, u2, u3, u4⟩ k1, .cons _ _ _ _ _ _ _ _ _ _ _ ?_ k2⟩
    exact ⟨hs.toTrackedStep, hs.proper, hs.ok, hs.events, hs.stats, hs.kept⟩

theorem isLeast_pressTime (g : Bool) (t : ℚ) (ready : WithBot ℚ) :
    IsLeast {x | t ≤ x ∧ (g = true → ∀ r : ℚ, readyOf ready = some r → r ≤ x)}
      (pressTime g t ready) := by
  unfold pressTime
  cases g with
  | false => exact ⟨⟨le_rfl, by simp⟩, fun x hx => hx.1⟩
  | true =>
    cases hb : ready with
    | bot => exact ⟨⟨le_rfl, by simp [readyOf]⟩, fun x hx => hx.1⟩
    | coe y =>
      refine ⟨⟨le_max_left _ _, fun _ r hr => ?_⟩, fun x hx => max_le hx.1 (hx.2 rfl y rfl)⟩
      cases hr
      exact le_max_right _ _

theorem seqSteps {st st' : SeqState} {q : List SeqPress} (hok : st.s.rb.events.Ok)
    (h : q.foldlM seqStep st = .ok st') :
    ∃ us slots, List.Forall₂ (fun (p : SeqPress) (u : Pressed) => u.skill = p.skill ∧
        u.asked = p.modifier ∧ u.targets = p.targets) q us ∧
      List.Forall₂ (Pressed.Occupies st.s.rb.stats) us slots ∧
      Earliest st.currT (readyOf st.nextGcd) slots ∧
      PressedSteps st.s.rb st.s.tr st.s.combo us st'.s.rb st'.s.tr st'.s.combo := by
  induction q generalizing st with
  | nil =>
    cases h
    exact ⟨[], [], .nil, .nil, trivial, .nil _ _ _⟩
  | cons p q ih =>
    rw [Py.foldlM_cons] at h
    obtain ⟨s1, h1, h⟩ := Py.bind_eq_ok.1 h
    unfold seqStep at h1
    obtain ⟨r, g1, h1⟩ := Py.bind_eq_ok.1 h1
    obtain ⟨timing, g0, h1⟩ := Py.bind_eq_ok.1 h1
    obtain ⟨rb1, g2, h1⟩ := Py.bind_eq_ok.1 h1
    obtain ⟨⟨rb2, tr2⟩, g3, h1⟩ := Py.bind_eq_ok.1 h1
    obtain ⟨ts, g4, hf⟩ := Py.bind_eq_ok.1 h1
    clear h1
    have hts : timing = some ts := by
      cases timing with
      | none => cases g4
      | some x =>
        cases g4
        rfl
    subst hts
    unfold recordTarget at g2
    obtain ⟨x, -, g2⟩ := Py.bind_eq_ok.1 g2
    cases g2
    obtain ⟨u, u1, u2, u3, u4, u5, u6, u7, hs⟩ := pressedStep (by exact hok) g1 g3
    have hst : rb2.stats = st.s.rb.stats := hs.stats
    have htime := hs.proper.timing
    rw [u2, u5, g0] at htime
    have htime' : u.timing = some ts := (Except.ok.inj htime).symm
    have hslot : ∃ s : SeqSlot, Pressed.Occupies st.s.rb.stats u s ∧
        IsLeast {x | st.currT ≤ x ∧ (s.Gcd → ∀ r : ℚ, readyOf st.nextGcd = some r → r ≤ x)} s.t ∧
        s1.currT = s.t + s.busy ∧
        readyOf s1.nextGcd = (if s.Gcd then some (s.t + s.recast) else readyOf st.nextGcd) ∧
        s1.s = { rb := rb2, tr := tr2, combo := r.combo } := by
      by_cases hg : p.skill.isGCD = some true
      · rw [hg] at hf u1
        simp only [Option.getD_some, if_true] at hf u1
        obtain ⟨recast, k1, hf⟩ := Py.bind_eq_ok.1 hf
        obtain ⟨cast, k2, hf⟩ := Py.bind_eq_ok.1 hf
        cases hf
        have hcast := hs.proper.cast
        rw [htime', u5, u6] at hcast
        have hcast' : cast = u.cast := by
          rw [hst] at k2
          have : getCastTime st.s.rb.stats (some ts) r.modifier r.buffs = .ok u.cast := hcast
          rw [k2] at this
          exact Except.ok.inj this
        refine ⟨{ t := u.t, skill := u.skill, modifier := u.modifier, buffs := u.buffs,
                  debuffs := u.debuffs, timing := ts, cast := u.cast, recast := recast },
          ⟨rfl, rfl, rfl, rfl, rfl, htime', rfl, ?_⟩, ?_, ?_, ?_, rfl⟩
        · intro _
          rw [u6, u7, ← hst]
          exact k1
        · have := isLeast_pressTime true st.currT st.nextGcd
          rw [← u1] at this
          simpa [SeqSlot.Gcd, u2, hg] using this
        · simp [SeqSlot.busy, SeqSlot.Gcd, u2, hg, hcast', u1]
        · simp [SeqSlot.Gcd, u2, hg, u1, readyOf]
      · have hg' : p.skill.isGCD.getD false = false := by
          cases hx : p.skill.isGCD with
          | none => rfl
          | some b =>
            cases b
            · rfl
            · exact absurd hx hg
        rw [hg'] at hf u1
        simp only [Bool.false_eq_true, if_false] at hf
        cases hf
        refine ⟨{ t := u.t, skill := u.skill, modifier := u.modifier, buffs := u.buffs,
                  debuffs := u.debuffs, timing := ts, cast := u.cast, recast := 0 },
          ⟨rfl, rfl, rfl, rfl, rfl, htime', rfl, fun hc => absurd (u2 ▸ hc) hg⟩, ?_, ?_, ?_, rfl⟩
        · have := isLeast_pressTime false st.currT st.nextGcd
          rw [← u1] at this
          simpa [SeqSlot.Gcd, u2, hg] using this
        · simp [SeqSlot.busy, SeqSlot.Gcd, u2, hg, u1]
        · simp [SeqSlot.Gcd, u2, hg]
    obtain ⟨s, o1, o2, o3, o4, o5⟩ := hslot
    have hok' : s1.s.rb.events.Ok := by
      rw [o5]
      exact hs.ok
    obtain ⟨us, slots, k1, k2, k3, k4⟩ := ih hok' h
    rw [o5] at k2 k4
    rw [o3, o4] at k3
    refine ⟨u :: us, s :: slots, .cons ⟨u2, u3, u4⟩ k1, .cons o1 ?_, ⟨o2, k3⟩,
      .cons _ _ _ _ _ _ _ _ _ _ _ ?_ k4⟩
    · rw [hst] at k2
      exact k2
    · exact ⟨hs.toTrackedStep, hs.proper, hs.ok, hs.events, hs.stats, hs.kept⟩

/-! ## All presses -/

theorem played_of_steps {rb : RotationBuilder} {tr tr' : Trackers} {c c' : ComboTracker}
    {us : List Pressed} (hi : rb.initTrackers = .ok (tr, c))
    (h : TrackedSteps tr c us tr' c') : Played rb us := by
  unfold initTrackers at hi
  obtain ⟨settings, h1, hi⟩ := Py.bind_eq_ok.1 hi
  obtain ⟨breakers, h2, hi⟩ := Py.bind_eq_ok.1 hi
  cases hi
  exact ⟨⟨_, _, h2, h.combos⟩, ⟨_, h1, h.gauges⟩, h.effects⟩

theorem played_congr {rb rb' : RotationBuilder} {us : List Pressed} (h : Played rb us)
    (h1 : rb'.stats = rb.stats) (h2 : rb'.lib = rb.lib) (h3 : rb'.priority = rb.priority) :
    Played rb' us := by
  obtain ⟨g1, g2, g3⟩ := h
  exact ⟨by rw [h1, h2]; exact g1, by rw [h1, h2]; exact g2, by rw [h3]; exact g3⟩

theorem presses_spec {rb rb₀ : RotationBuilder} (h : afterPresses rb = .ok rb₀) :
    ∃ seq timed : List Pressed, ∃ slots, ∃ order : List TimedPress,
      order.Perm rb.qTimed ∧ order.Pairwise (fun a b => a.t ≤ b.t) ∧
      List.Forall₂ (fun (p : SeqPress) (u : Pressed) => u.skill = p.skill ∧
        u.asked = p.modifier ∧ u.targets = p.targets) rb.qSequence seq ∧
      List.Forall₂ (fun (p : TimedPress) (u : Pressed) => u.t = p.t ∧ u.skill = p.skill ∧
        u.asked = p.modifier ∧ u.targets = p.targets) order timed ∧
      (∀ u ∈ seq ++ timed, u.Proper rb.stats) ∧
      List.Forall₂ (Pressed.Occupies rb.stats) seq slots ∧
      Earliest (rb.fightStart.getD 0) none slots ∧
      Played rb seq ∧ Played rb timed ∧
      ∃ evss, List.Forall₂ Pressed.Makes (seq ++ timed) evss ∧ rb₀.events.q.Perm evss.flatten := by
  have hs := start_fields rb
  change rb.start.processQSequence >>= (fun rb => rb.processQTimed) = .ok rb₀ at h
  obtain ⟨rb1, h1, h⟩ := Py.bind_eq_ok.1 h
  unfold processQSequence at h1
  obtain ⟨⟨tr, combo⟩, i1, h1⟩ := Py.bind_eq_ok.1 h1
  obtain ⟨st, f1, h1⟩ := Py.bind_eq_ok.1 h1
  cases h1
  unfold processQTimed at h
  obtain ⟨⟨tr2, combo2⟩, i2, h⟩ := Py.bind_eq_ok.1 h
  obtain ⟨s, f2, h⟩ := Py.bind_eq_ok.1 h
  cases h
  have ok0 : rb.start.events.Ok := by
    rw [hs.2.2.2.2.2.2.2.2.2.2.2.2.2.1]
    exact Heapq.isHeap_nil
  obtain ⟨seq, slots, a1, a2, a3, a4⟩ := seqSteps (by exact ok0) f1
  obtain ⟨e0, evs1, e1, e2⟩ := a4.events ok0
  obtain ⟨order, o1, o2, o3⟩ := timedLoop_spec _ _ _ _ (Heapq.isHeap_of_sorted (sortBy_sorted _ _)) f2
  obtain ⟨timed, b1, b2⟩ := timedSteps (by exact e0) o3
  obtain ⟨e3, evs2, e4, e5⟩ := b2.events e0
  obtain ⟨k1, k2, k3⟩ := a4.kept
  have k0 := a4.stats
  have k0' := b2.stats
  have eseq : rb.start.qSequence = rb.qSequence := hs.2.2.2.2.2.2.2.2.2.2.1
  have etim : rb.start.qTimed = rb.qTimed := hs.2.2.2.2.2.2.2.2.2.1
  have elib : rb.start.lib = rb.lib := hs.2.1
  have epri : rb.start.priority = rb.priority := hs.2.2.2.2.2.2.1
  have efs : rb.start.fightStart = rb.fightStart := hs.2.2.2.2.2.1
  have est : rb.start.stats = rb.stats := hs.1
  refine ⟨seq, timed, slots, order, ?_, o2, eseq ▸ a1, b1, ?_, est ▸ a2, ?_, ?_, ?_,
    evs1 ++ evs2, ?_, ?_⟩
  · refine o1.trans ((sortBy_perm _ _).trans ?_)
    rw [k3]
    exact etim ▸ .refl _
  · intro u hu
    rcases List.mem_append.1 hu with hu | hu
    · exact est ▸ k0.2 u hu
    · have := k0'.2 u hu
      rw [k0.1] at this
      exact est ▸ this
  · rw [← efs]
    exact a3
  · exact played_congr (played_of_steps i1 a4.tracked) est.symm elib.symm epri.symm
  · exact played_congr (played_of_steps i2 b2.tracked) (by rw [k0.1]; exact est.symm) (by rw [k1]; exact elib.symm)
      (by rw [k2]; exact epri.symm)
  · exact List.rel_append e1 e4
  · have ev0 : rb.start.events.q = [] := by
      rw [hs.2.2.2.2.2.2.2.2.2.2.2.2.2.1]
    have e2' : st.s.rb.events.q.Perm evs1.flatten := by
      refine e2.trans ?_
      simp only [ev0, List.append_nil, List.Perm.refl]
    rw [List.flatten_append]
    exact e5.trans (((List.Perm.refl _).append e2').trans List.perm_append_comm)

end RotationBuilder

end Ama
