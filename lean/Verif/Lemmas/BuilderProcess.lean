import Verif.Lemmas.BuilderTicks

/-!
# What one use of a skill records
-/

namespace Ama

open Spec

theorem appsOf_addDotApp (d : Dots) (f f' : FollowUp) (a : DotApp) (target target' : String) :
    appsOf (RotationBuilder.addDotApp d f a target) target' f' =
      appsOf d target' f' ++ if target = target' ∧ f = f' then [a] else [] := by
  unfold appsOf RotationBuilder.addDotApp
  simp only
  rw [Dict.get?_set]
  by_cases h1 : target = target'
  · subst h1
    simp only [if_true, Dict.get?_set, true_and]
    by_cases h2 : f = f'
    · subst h2
      simp only [if_true]
      cases Dict.get? d target with
      | none => rfl
      | some per =>
        simp only [Option.getD_some]
        cases Dict.get? per f <;> rfl
    · simp only [h2, if_false, List.append_nil]
      cases Dict.get? d target with
      | none => rfl
      | some per => rfl
  · simp only [h1, if_false, false_and, List.append_nil]

theorem appsOf_addDots (l : List (String × FollowUp × DotApp)) (d : Dots) (target : String)
    (f : FollowUp) :
    appsOf (addDots d l) target f =
      appsOf d target f ++ (l.filter (fun x => decide (x.1 = target ∧ x.2.1 = f))).map (·.2.2) := by
  induction l generalizing d with
  | nil => simp [addDots]
  | cons x l ih =>
    have : addDots d (x :: l) = addDots (RotationBuilder.addDotApp d x.2.1 x.2.2 x.1) l := rfl
    rw [this, ih, appsOf_addDotApp, List.append_assoc, List.filter_cons]
    by_cases h : x.1 = target ∧ x.2.1 = f
    · simp [h]
    · simp [h]

namespace RotationBuilder

theorem mainEvent_use {u : Use} {e : Event} (h : NewEvent.Becomes u.mainEvent e) :
    UseEvent u.skill u.modifier u.targets u.snapshot u.application e := by
  have ha := becomes_appliedAt' h
  obtain ⟨h1, h2, h3, h4, h5, _, _, _, h9⟩ := h
  refine ⟨h1, h2, ha, h3, h4, h5, ?_, ?_⟩
  · split_ifs at h9
    · exact h9.2.1
    · exact h9.2.1
  · split_ifs at h9
    · exact h9.2.2
    · exact h9.2.2

theorem followUpEvent_event {f : FollowUp} {k : ℕ} {snapshot application : ℚ} {targets : List String}
    {e : Event}
    (h : NewEvent.Becomes (followUpEvent f (k + 1) snapshot application
      (if f.primaryTargetOnly then targets.take 1 else targets)) e) :
    Spec.FollowUpEvent f k targets snapshot application e := by
  have ha : appliedAt e = application + f.delayAfterParentApplication := becomes_appliedAt' h
  obtain ⟨h1, h2, h3, h4, h5, _, _, _, h9⟩ := h
  have hp : e.primary = if (f.snapshotBuffsWithParent || f.snapshotDebuffsWithParent) = true
      then snapshot else application + f.delayAfterParentApplication := h2
  refine ⟨?_, ha, ?_, ?_, ?_, h3, h4, h5⟩
  · rw [h1, h2]
    rfl
  · intro hw
    rw [hp, if_pos (by rcases hw with hw | hw <;> simp [hw])]
  · intro hb hd
    have hsame : (followUpEvent f (k + 1) snapshot application
      (if f.primaryTargetOnly then targets.take 1 else targets)).secondary =
        some (followUpEvent f (k + 1) snapshot application
      (if f.primaryTargetOnly then targets.take 1 else targets)).primary := by
      simp [followUpEvent, hb, hd]
    rw [if_pos hsame] at h9
    rw [hp, if_neg (by simp [hb, hd]), ha]
    exact ⟨rfl, h9.2.1, h9.2.2⟩
  · intro hne
    have hns : ¬ (followUpEvent f (k + 1) snapshot application
      (if f.primaryTargetOnly then targets.take 1 else targets)).secondary =
        some (followUpEvent f (k + 1) snapshot application
      (if f.primaryTargetOnly then targets.take 1 else targets)).primary := by
      intro hc
      apply hne
      rw [h2, ha]
      exact (Option.some.inj hc).symm
    rw [if_neg hns] at h9
    have hw : (f.snapshotBuffsWithParent || f.snapshotDebuffsWithParent) = true := by
      by_contra hc
      apply hne
      rw [hp, if_neg hc, ha]
    rw [h9.2.1, h9.2.2]
    simp [followUpEvent, hw]

/-- Everything one use records. -/
theorem processSkill_spec {rb rb' : RotationBuilder} {t : ℚ} {skill : Skill} {m : SkillModifier}
    {tr tr' : Trackers} {buffs : StatusEffects} {targets : List String} (hq : rb.events.Ok)
    (h : rb.processSkill t skill m tr buffs targets = .ok (rb', tr')) :
    ∃ timing cast application fs, skill.getTimingSpec m = .ok timing ∧
      getCastTime rb.stats timing m buffs = .ok cast ∧
      (∀ ts, timing = some ts → application = appliesAt t cast m ts) ∧
      (timing = none → application = t + cast) ∧
      skill.getFollowUpSkills m = .ok fs ∧
      (∃ main new, UseEvent skill m targets (snapshotsAt t cast) application main ∧
        List.Forall₂ (fun (fi : FollowUp × ℕ) e =>
          Spec.FollowUpEvent fi.1 fi.2 targets (snapshotsAt t cast) application e)
          (fs.zipIdx.filter (fun fi => fi.1.dotDuration.isNone)) new ∧
        rb'.events.q.Perm (main :: new ++ rb.events.q)) ∧
      ∀ target f, appsOf rb'.qDot target f = appsOf rb.qDot target f ++
        (fs.zipIdx.filter (fun fi => fi.1.dotDuration.isSome && decide (fi.1 = f))).flatMap
          (fun fi => List.replicate (targets.count target)
            { snapshot := snapshotsAt t cast, application := application, prioMod := fi.2 + 1 }) := by
  rw [processSkill_eq] at h
  obtain ⟨⟨l, tr1⟩, h1, h⟩ := Py.bind_eq_ok.1 h
  cases h
  obtain ⟨timing, cast, application, fs, g1, g2, g3, g4, g5⟩ := processSkillLog_spec h1
  have g5 := g5 m "" {}
  set u : Use := { t := t, skill := skill, asked := m, jobClass := "", modifier := m,
                   buffs := buffs, debuffs := {}, targets := targets, timing := timing,
                   cast := cast, application := application, followUps := fs } with hu
  have hsn : u.snapshot = snapshotsAt t cast := by
    unfold Use.snapshot snapshotsAt
    simp [GameConsts.DAMAGE_SNAPSHOT_TIME_BEFORE_CAST_FINISHES, hu]
  refine ⟨timing, cast, application, fs, g1, g2, ?_, ?_, g4, ?_, ?_⟩
  · rintro ts rfl
    unfold applicationTimeOf at g3
    unfold appliesAt
    by_cases hi : m.ignoreApplicationDelay = true
    · rw [if_pos hi] at g3 ⊢
      cases g3
      rfl
    · rw [if_neg hi] at g3 ⊢
      cases g3
      by_cases hc : cast > 1 / 1000000
      · simp only [hc, if_true, GameConsts.DAMAGE_SNAPSHOT_TIME_BEFORE_CAST_FINISHES]
        congr 2
        push_cast
        ring
      · simp only [hc, if_false]
  · rintro rfl
    unfold applicationTimeOf at g3
    split_ifs at g3
    cases g3
    rfl
  · obtain ⟨_, es, k1, k2⟩ := pushes_spec l.adds rb.events hq
    have k3 := eventsOf_forall₂ k1
    rw [g5] at k3
    cases k3 with
    | @cons _ main _ new k4 k5 =>
      refine ⟨main, new, ?_, ?_, k2⟩
      · have := mainEvent_use k4
        rw [hsn] at this
        exact this
      · unfold Use.followUpEvents at k5
        rw [List.forall₂_map_left_iff] at k5
        have hfil : u.followUps.zipIdx.filter (fun fi => !fi.1.dotDuration.isSome) =
            fs.zipIdx.filter (fun fi => fi.1.dotDuration.isNone) := by
          congr 1
          funext fi
          cases fi.1.dotDuration <;> rfl
        rw [hfil] at k5
        refine k5.imp ?_
        intro fi e hfe
        rw [hsn] at hfe
        exact followUpEvent_event hfe
  · intro target f
    change appsOf (addDots rb.qDot l.dots) target f = _
    rw [appsOf_addDots, g5]
    congr 1
    change (u.dots.filter _).map _ = _
    unfold Use.dots
    rw [List.filter_flatMap, List.map_flatMap, hsn]
    change ((fs.zipIdx.filter _).flatMap _) = _
    generalize fs.zipIdx = l
    induction l with
    | nil => rfl
    | cons fi l ih =>
      by_cases hd : fi.1.dotDuration.isSome = true
      · simp only [List.filter_cons, hd, if_true, List.flatMap_cons, Bool.true_and]
        rw [ih]
        by_cases hf : fi.1 = f
        · simp only [hf, decide_true, if_true, List.flatMap_cons]
          congr 1
          have : ∀ ts : List String,
              ((ts.map (fun target' => ((target', f,
                ({ snapshot := snapshotsAt t cast, application := application,
                   prioMod := fi.2 + 1 } : DotApp)) : String × FollowUp × DotApp))).filter
                (fun x => decide (x.1 = target ∧ x.2.1 = f))).map (·.2.2) =
              List.replicate (ts.count target)
                ({ snapshot := snapshotsAt t cast, application := application,
                   prioMod := fi.2 + 1 } : DotApp) := by
            intro ts
            induction ts with
            | nil => rfl
            | cons x ts ih2 =>
              simp only [List.map_cons, List.filter_cons, and_true, List.count_cons] at ih2 ⊢
              by_cases hx : x = target
              · subst hx
                simp only [decide_true, if_true, List.map_cons, beq_self_eq_true,
                  List.replicate_succ, ih2]
              · simp only [hx, decide_false, Bool.false_eq_true, if_false, beq_eq_false_iff_ne.2 hx,
                  Nat.add_zero, ih2]
          exact this targets
        · simp only [hf, decide_false, if_false, Bool.false_eq_true]
          have : ∀ ts : List String,
              ((ts.map (fun target' => ((target', fi.1,
                ({ snapshot := snapshotsAt t cast, application := application,
                   prioMod := fi.2 + 1 } : DotApp)) : String × FollowUp × DotApp))).filter
                (fun x => decide (x.1 = target ∧ x.2.1 = f))).map (·.2.2) = [] := by
            intro ts
            simp [hf]
          rw [show ((u.targets.map _).filter _).map _ = _ from this targets]
          rfl
      · simp only [List.filter_cons, hd, if_false, Bool.false_eq_true, Bool.false_and]
        exact ih

end RotationBuilder

end Ama
