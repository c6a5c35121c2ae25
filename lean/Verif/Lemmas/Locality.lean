import Verif.Lemmas.BuilderFrame
import Verif.Lemmas.StatFns
import Verif.Lemmas.TimelineSkills
import Verif.Model.DamageSimulator
import Verif.Spec.Locality

/-!
# What a timeline depends on
-/

namespace Ama

open Spec

theorem GameConsts.lookup_congr {v v' : String} (h : v' = "test" ↔ v = "test") (x : ℚ) (t : Dict ℕ ℚ) (l : ℕ) :
    GameConsts.lookup x t v' l = GameConsts.lookup x t v l := by
  unfold GameConsts.lookup GameConsts.kTestStr
  simp only [h]

theorem StatFns.time_congr {v v' : String} (h : v' = "test" ↔ v = "test") (t s : ℚ) (l : ℕ) :
    StatFns.getTimeUsingSpeedStat t s v' l = StatFns.getTimeUsingSpeedStat t s v l := by
  unfold StatFns.getTimeUsingSpeedStat GameConsts.getLevelSub GameConsts.getLevelDiv GameConsts.getSpeedConst
  simp only [GameConsts.lookup_congr h]

/-- Speeds of the same tier make the same times. -/
theorem StatFns.time_tier {version : String} {level : ℕ} {x y : ℚ} (h : SameSpeed version level x y) (t : ℚ) :
    StatFns.getTimeUsingSpeedStat t y version level = StatFns.getTimeUsingSpeedStat t x version level := by
  rcases h with rfl | ⟨a, b, rfl, rfl, ha, hb, h⟩
  · rfl
  · cases hs : GameConsts.getLevelSub version level with
    | error e =>
      unfold StatFns.getTimeUsingSpeedStat
      rw [hs, Py.error_bind, Py.error_bind]
    | ok z =>
      obtain ⟨r, hr⟩ := GameConsts.exists_row (GameConsts.supported_of_lookup hs)
      rw [StatFns.time_eq hr, StatFns.time_eq hr]
      have key : StatFns.speedFactor r b = StatFns.speedFactor r a := by
        rw [StatFns.speedFactor_int hr.mem ha, StatFns.speedFactor_int hr.mem hb]
        have hsub := hr.sub
        have hmem := hr.mem
        unfold speedTier at h
        unfold GameConsts.getLevelSub GameConsts.lookup GameConsts.kTestStr at hsub
        simp only [GameConsts.rows, List.mem_cons, List.not_mem_nil, or_false] at hmem
        by_cases hv : version ≠ "test" ∧ level = 100
        · rw [if_pos hv, if_pos hv] at h
          rw [if_neg hv.1, hv.2] at hsub
          rcases hmem with rfl | rfl
          · exact absurd hsub (by decide +kernel)
          · rw [h]
        · rw [if_neg hv, if_neg hv] at h
          rcases hmem with rfl | rfl
          · rw [h]
          · exfalso
            by_cases h1 : version = "test"
            · rw [if_pos h1] at hsub
              exact absurd hsub (by decide +kernel)
            · rw [if_neg h1] at hsub
              have h2 : level ≠ 100 := fun h2 => hv ⟨h1, h2⟩
              rcases GameConsts.supported_of_lookup hs with h3 | h3 | h3
              · exact h1 h3
              · rw [h3] at hsub
                exact absurd hsub (by decide +kernel)
              · exact h2 h3
      unfold StatFns.centis
      rw [key]

theorem StatFns.time_pace {s s' : Stats} (h : SamePace s s') (t : ℚ) :
    StatFns.getTimeUsingSpeedStat t s'.speedStat s'.version s.level =
      StatFns.getTimeUsingSpeedStat t s.speedStat s.version s.level := by
  rw [StatFns.time_congr h.test, StatFns.time_tier h.speed]

theorem mkStats_ok {r : RawStats} {s : Stats} (h : mkStats r = .ok s) :
    ∃ p w, mkProcessedStats r = .ok p ∧
      (match r.weaponDelay with
        | some d => .ok d
        | none => Dict.get GameConsts.WEAPON_DELAYS r.jobClass) = Except.ok w ∧
      s = { wd := r.wd, weaponDelay := w, mainStat := r.mainStat, detStat := r.detStat, dhStat := r.dhStat,
            critStat := r.critStat, speedStat := r.speedStat, jobClass := r.jobClass, version := r.version,
            tenacity := r.tenacity, numRolesInParty := r.numRolesInParty,
            healerOrCasterStrength := r.healerOrCasterStrength, level := r.level, processed := p } := by
  unfold mkStats at h
  obtain ⟨p, hp, h⟩ := Py.bind_eq_ok.1 h
  cases hd : r.weaponDelay with
  | some d =>
    rw [hd] at h
    cases h
    exact ⟨p, d, hp, rfl, rfl⟩
  | none =>
    rw [hd] at h
    obtain ⟨w, hw, h⟩ := Py.bind_eq_ok.1 h
    cases h
    exact ⟨p, w, hp, hw, rfl⟩

namespace RotationBuilder

variable {s s' : Stats}

theorem getCastTime_congr (h : SamePace s s') : getCastTime s' = getCastTime s := by
  funext ts m b
  unfold getCastTime
  simp only [h.haste, h.level, StatFns.time_pace h]

theorem recastTime_congr (h : SamePace s s') : recastTime s' = recastTime s := by
  funext ts b d
  unfold recastTime
  simp only [h.haste, h.level, StatFns.time_pace h]

theorem processSkillLog_congr (h : SamePace s s') : processSkillLog s' = processSkillLog s := by
  funext t skill m tr b ts
  unfold processSkillLog
  simp only [getCastTime_congr h]

theorem timedStepLog_congr (h : SamePace s s') : timedStepLog s' = timedStepLog s := by
  funext st p
  unfold timedStepLog
  simp only [processSkillLog_congr h, h.job]

theorem timedLoopLog_congr (h : SamePace s s') : timedLoopLog s' = timedLoopLog s := by
  funext n
  induction n with
  | zero => rfl
  | succ n ih =>
    funext st q
    unfold timedLoopLog
    simp only [timedStepLog_congr h, ih]

theorem seqStepLog_congr (h : SamePace s s') : seqStepLog s' = seqStepLog s := by
  funext st p
  unfold seqStepLog
  simp only [processSkillLog_congr h, getCastTime_congr h, recastTime_congr h, h.job]

/-- The builder with other stats and another library. -/
def swap (rb : RotationBuilder) (s : Stats) (lib : SkillLibrary) : RotationBuilder :=
  { rb with stats := s, lib := lib }

variable {rb : RotationBuilder} {lib : SkillLibrary}

theorem initTrackers_swap (h : SamePace rb.stats s) (hl : SameRules rb.lib lib rb.stats.jobClass) :
    (rb.swap s lib).initTrackers = rb.initTrackers := by
  unfold initTrackers swap
  simp only [h.job, hl.settings, hl.breakers]

theorem start_swap : (rb.swap s lib).start = rb.start.swap s lib := by
  unfold start processDowntimeWindows swap
  cases h : rb.downtime <;> simp only [h]

theorem queueLog_swap (h : SamePace rb.stats s) (hl : SameRules rb.lib lib rb.stats.jobClass) :
    (rb.swap s lib).queueLog = rb.queueLog := by
  have h1 := initTrackers_swap h hl
  have h2 : (rb.swap s lib).stats = s := rfl
  have h3 : (rb.swap s lib).qSequence = rb.qSequence := rfl
  have h4 : (rb.swap s lib).qTimed = rb.qTimed := rfl
  have h5 : (rb.swap s lib).fightStart = rb.fightStart := rfl
  unfold queueLog seqLog timedLog
  rw [h1, h2, h3, h4, h5, seqStepLog_congr h, timedLoopLog_congr h]

theorem noAutoStep_swap (h : SamePace rb.stats s) : (rb.swap s lib).noAutoStep = rb.noAutoStep := by
  funext st p
  unfold noAutoStep swap
  simp only [getCastTime_congr h]

theorem noAutoLoop_swap (h : SamePace rb.stats s) : (rb.swap s lib).noAutoLoop = rb.noAutoLoop := by
  funext n
  induction n with
  | zero => rfl
  | succ n ih =>
    funext st q
    unfold noAutoLoop
    simp only [noAutoStep_swap h, ih]

theorem getNoAutoPeriods_swap (h : SamePace rb.stats s) (hl : SameRules rb.lib lib rb.stats.jobClass) :
    (rb.swap s lib).getNoAutoPeriods = rb.getNoAutoPeriods := by
  unfold getNoAutoPeriods
  rw [initTrackers_swap h hl, noAutoLoop_swap h]
  rfl

theorem applicable_swap (h : SamePace rb.stats s) (hl : SameRules rb.lib lib rb.stats.jobClass) :
    (rb.swap s lib).applicableStatusEffects = rb.applicableStatusEffects := by
  funext tl t sk m ts
  unfold applicableStatusEffects
  rw [initTrackers_swap h hl]

theorem addEvent_swap (a : NewEvent) : (rb.swap s lib).addEvent a = (rb.addEvent a).map (·.swap s lib) := by
  rw [addEvent_eq_addAll, addEvent_eq_addAll]
  rfl

theorem autosLoop_swap {skill : Skill} {delay last w : ℚ} {ts : List (ℚ × String)} {n : ℕ}
    (h : SamePace rb.stats s) (hl : SameRules rb.lib lib rb.stats.jobClass) {t : WithTop ℚ} {i : ℕ} :
    autosLoop skill delay ts last w n (rb.swap s lib) t i =
      (autosLoop skill delay ts last w n rb t i).map (·.swap s lib) := by
  induction n generalizing rb t i with
  | zero => rfl
  | succ n ih =>
    unfold autosLoop
    cases t with
    | top => rfl
    | coe t =>
      simp only
      split_ifs with hlt
      · cases pyIdx ts (advanceIndex ts t i - 1) with
        | error e => rfl
        | ok x =>
          simp only [Py.ok_bind, addEvent_eq_addAll]
          generalize hr : rb.addAll [autoEvent skill t delay x.2] = r
          have hr1 : (rb.swap s lib).addAll [autoEvent skill t delay x.2] = r.swap s lib := by
            rw [← hr]
            rfl
          have hs : SamePace r.stats s := by
            rw [← hr]
            exact h
          have hl' : SameRules r.lib lib r.stats.jobClass := by
            rw [← hr]
            exact hl
          rw [hr1]
          have e1 : (r.swap s lib).speedTimeline = r.speedTimeline := rfl
          have e2 : (r.swap s lib).defaultTarget = r.defaultTarget := rfl
          have e3 : ∀ a b c, (r.swap s lib).getNextAutoTime a b c = r.getNextAutoTime a b c := fun _ _ _ => rfl
          rw [e1, e2, applicable_swap hs hl', getNoAutoPeriods_swap hs hl']
          simp only [e3]
          cases r.speedTimeline with
          | error e => rfl
          | ok tl =>
            simp only [Py.ok_bind]
            cases r.applicableStatusEffects tl t skill {} [r.defaultTarget] with
            | error e => rfl
            | ok y =>
              simp only [Py.ok_bind]
              cases r.getNoAutoPeriods with
              | error e => rfl
              | ok ps =>
                simp only [Py.ok_bind]
                cases r.getNextAutoTime _ ps x.2 with
                | error e => rfl
                | ok nx =>
                  simp only [Py.ok_bind]
                  exact ih hs hl'
      · rfl

theorem autoSkill_swap (h : SamePace rb.stats s) (ha : SameAutos rb.lib lib rb.stats.jobClass) :
    (rb.swap s lib).autoSkill = rb.autoSkill := by
  unfold autoSkill swap
  simp only [h.job, ha.shot, ha.autos "Shot" (by simp), ha.autos "Auto" (by simp)]

theorem addAutos_swap {fuel : ℕ} {last : Option ℚ} (h : SamePace rb.stats s)
    (hl : SameRules rb.lib lib rb.stats.jobClass) (ha : SameAutos rb.lib lib rb.stats.jobClass) :
    addAutos fuel (rb.swap s lib) last = (addAutos fuel rb last).map (·.swap s lib) := by
  unfold addAutos
  rw [autoSkill_swap h ha]
  have e1 : (rb.swap s lib).timestamps = rb.timestamps := rfl
  have e2 : (rb.swap s lib).stats = s := rfl
  have e3 : (rb.swap s lib).events = rb.events := rfl
  rw [e1, e2, e3, h.weaponDelay, h.autos]
  cases shortenSequence (sortBy (·.1) rb.timestamps) with
  | error e => rfl
  | ok ts =>
    simp only [Py.ok_bind]
    cases rb.autoSkill with
    | error e => rfl
    | ok skill =>
      simp only [Py.ok_bind]
      cases rb.events.getFirstDamageTime with
      | error e => rfl
      | ok first =>
        simp only [Py.ok_bind]
        cases first with
        | none => rfl
        | some first =>
          simp only
          cases autoDelay skill with
          | error e => rfl
          | ok delay =>
            simp only [Py.ok_bind]
            split
            · rfl
            · exact autosLoop_swap h hl

theorem finish_swap : finish (rb.swap s lib) = (finish rb).map (·.swap s lib) := by
  rw [finish_eq, finish_eq]
  have : (rb.swap s lib).finishOut = rb.finishOut := finishOut_congr rfl rfl rfl rfl
  rw [this]
  cases rb.finishOut <;> rfl

theorem getSkillTiming_swap {fuel : ℕ} (h : SamePace rb.stats s)
    (hl : SameRules rb.lib lib rb.stats.jobClass)
    (ha : rb.enableAutos = true → SameAutos rb.lib lib rb.stats.jobClass) :
    (rb.swap s lib).getSkillTiming fuel = (rb.getSkillTiming fuel).map (·.swap s lib) := by
  rw [getSkillTiming_eq, getSkillTiming_eq, start_swap]
  obtain ⟨a1, a2, _⟩ := start_fields rb
  have h' : SamePace rb.start.stats s := by rw [a1]; exact h
  have hl' : SameRules rb.start.lib lib rb.start.stats.jobClass := by rw [a1, a2]; exact hl
  rw [queueLog_swap h' hl']
  cases rb.start.queueLog with
  | error e => rfl
  | ok l =>
    simp only [Py.ok_bind]
    have e1 : (rb.start.swap s lib).apply l = (rb.start.apply l).swap s lib := rfl
    have e2 : ∀ r : RotationBuilder, (r.swap s lib).lastFor = r.lastFor := fun _ => rfl
    rw [e1, e2]
    have e3 : (rb.swap s lib).snapDots = rb.snapDots := rfl
    have e4 : (rb.swap s lib).qDot = rb.qDot := rfl
    have e5 : (rb.swap s lib).enableAutos = rb.enableAutos := rfl
    rw [e3, e4, e5]
    cases allDotAdds rb.snapDots (rb.start.apply l).lastFor (addDots rb.qDot l.dots) with
    | error e => rfl
    | ok as =>
      simp only [Py.ok_bind]
      have e6 : ((rb.start.apply l).swap s lib).addAll as = ((rb.start.apply l).addAll as).swap s lib := rfl
      rw [e6]
      cases he : rb.enableAutos with
      | false => exact finish_swap
      | true =>
        simp only [if_true]
        have ha' : SameAutos rb.start.lib lib rb.start.stats.jobClass := by rw [a1, a2]; exact ha he
        rw [addAutos_swap (rb := (rb.start.apply l).addAll as) h' hl' ha']
        cases addAutos fuel ((rb.start.apply l).addAll as) (rb.start.apply l).lastFor with
        | error e => rfl
        | ok r => exact finish_swap

end RotationBuilder

namespace RotationBuilder

variable {s s' : Stats} {lib : SkillLibrary} {rb : RotationBuilder}

theorem init_swap (h : SamePace s s') (sd : Option ℚ) (a i : Bool) (f : Option ℚ) (d : RawDowntime) (t : String) :
    init s' lib sd a i f d t = (init s lib sd a i f d t).map (·.swap s' lib) := by
  unfold init
  rw [h.job]
  cases lib.getStatusEffectPriority s.jobClass <;> rfl

theorem addNext_swap (h : SamePace rb.stats s) (n : String) (m : Option SkillModifier) (j : Option String) (k : ℕ)
    (t : Option String) :
    (rb.swap s rb.lib).addNext n m j k t = (rb.addNext n m j k t).map (·.swap s rb.lib) := by
  unfold addNext processTargets getDefaultSkillModifier swap
  simp only [h.job]
  cases rb.lib.getSkill n (j.getD rb.stats.jobClass) <;> rfl

theorem add_swap (h : SamePace rb.stats s) (x : ℚ) (n : String) (m : Option SkillModifier) (j : Option String)
    (t : Option String) :
    (rb.swap s rb.lib).add x n m j t = (rb.add x n m j t).map (·.swap s rb.lib) := by
  unfold add processTargets getDefaultSkillModifier swap
  simp only [h.job]
  cases rb.lib.getSkill n (j.getD rb.stats.jobClass) <;> rfl

theorem op_swap (h : SamePace rb.stats s) (op : BuilderOp) :
    op.run (rb.swap s rb.lib) = (op.run rb).map (·.swap s rb.lib) := by
  cases op with
  | addNext name m job n targets => exact addNext_swap h name m job n targets
  | add t name m job targets => exact add_swap h t name m job targets
  | setTrailing b => rfl
  | setAutos b => rfl
  | timing fuel => exact getSkillTiming_swap h ⟨rfl, rfl⟩ (fun _ => ⟨rfl, fun _ _ => rfl⟩)

theorem ops_swap (ops : List BuilderOp) (rb : RotationBuilder) (h : SamePace rb.stats s) :
    ops.foldlM BuilderOp.run (rb.swap s rb.lib) = (ops.foldlM BuilderOp.run rb).map (·.swap s rb.lib) := by
  induction ops generalizing rb with
  | nil => rfl
  | cons op ops ih =>
    rw [Py.foldlM_cons, Py.foldlM_cons, op_swap h]
    cases ho : op.run rb with
    | error e => rfl
    | ok r =>
      obtain ⟨h1, h2, _⟩ := op_frame ho
      have := ih r (by rw [h1]; exact h)
      rw [h2] at this
      exact this

end RotationBuilder

/-! ## Damage -/

namespace ComputeDamage

variable {s : Stats} {v : String}

theorem getBaseDamage_version (h : v = "test" ↔ s.version = "test") (skill : Skill) (m : SkillModifier)
    (se : StatusEffects × StatusEffects) :
    getBaseDamage skill m { s with version := v } se = getBaseDamage skill m s se := by
  have g := GameConsts.lookup_congr h
  have a1 : JobClassFns.isTank v = JobClassFns.isTank s.version := by
    funext j; unfold JobClassFns.isTank; simp only [h]
  have a2 : JobClassFns.isHealer v = JobClassFns.isHealer s.version := by
    funext j; unfold JobClassFns.isHealer; simp only [h]
  have a3 : JobClassFns.isCaster v = JobClassFns.isCaster s.version := by
    funext j; unfold JobClassFns.isCaster; simp only [h]
  have a4 : JobClassFns.usesSks v = JobClassFns.usesSks s.version := by
    funext j; unfold JobClassFns.usesSks; simp only [h]
  have b1 : ∀ x y l, StatFns.fAP x y v l = StatFns.fAP x y s.version l := by
    intro x y l
    simp only [StatFns.fAP, GameConsts.getLevelMain, GameConsts.getFAPTank, GameConsts.getFAP, g]
  have b2 : ∀ x y l, StatFns.fWD x y v l = StatFns.fWD x y s.version l := by
    intro x y l
    simp only [StatFns.fWD, GameConsts.getLevelMain, g]
  have b3 : ∀ x l, StatFns.fSpd x v l = StatFns.fSpd x s.version l := by
    intro x l
    simp only [StatFns.fSpd, GameConsts.getLevelSub, GameConsts.getLevelDiv, GameConsts.getSpeedConst, g]
  have b4 : ∀ x l, StatFns.fTnc x v l = StatFns.fTnc x s.version l := by
    intro x l
    simp only [StatFns.fTnc, GameConsts.getLevelSub, GameConsts.getLevelDiv, GameConsts.getTenConst, g]
  have b5 : ∀ x y l, StatFns.fDetDH x y v l = StatFns.fDetDH x y s.version l := by
    intro x y l
    simp only [StatFns.fDetDH, StatFns.fDet, GameConsts.getLevelMain, GameConsts.getLevelSub,
      GameConsts.getLevelDiv, GameConsts.getDetConst, g]
  have b6 : ∀ x y z l, StatFns.fAuto x y z v l = StatFns.fAuto x y z s.version l := by
    intro x y z l
    simp only [StatFns.fAuto, GameConsts.getLevelMain, g]
  have b7 : GameConsts.getLevelMain v = GameConsts.getLevelMain s.version := by
    funext l
    simp only [GameConsts.getLevelMain, g]
  have c1 : tnc { s with version := v } = tnc s := by
    unfold tnc; simp only [b4]
  have c2 : ∀ d, detDh { s with version := v } d m se = detDh s d m se := by
    intro d; unfold detDh; simp only [b5]
  have c3 : tankStep { s with version := v } = tankStep s := by
    funext x; unfold tankStep; simp only [a1, c1]
  have c4 : tankStepDot { s with version := v } = tankStepDot s := by
    funext x; unfold tankStepDot; simp only [a1, c1]
  have c5 : directBase { s with version := v } = directBase s := by
    funext a b c d; unfold directBase; simp only [a2, a3, c3]
  have d1 : directDamage skill m { s with version := v } se = directDamage skill m s se := by
    unfold directDamage
    simp only [a1, b1, b2, c2, c5]
    rfl
  have d2 : magicalDotDamage skill m { s with version := v } se = magicalDotDamage skill m s se := by
    unfold magicalDotDamage
    simp only [a1, b1, b2, b3, c2, c4]
    rfl
  have d3 : physicalDotDamage skill m { s with version := v } se = physicalDotDamage skill m s se := by
    unfold physicalDotDamage
    simp only [a1, b1, b2, b3, c2, c4]
    rfl
  have d4 : petDamage skill m { s with version := v } se = petDamage skill m s se := by
    unfold petDamage
    simp only [b1, b2, b7, c2, c3]
    rfl
  have d5 : autoDamage skill m { s with version := v } se = autoDamage skill m s se := by
    unfold autoDamage autoMainStat autoSpd
    simp only [a1, a2, a3, a4, b1, b3, b6, c2, c3]
    rfl
  have e : ∀ c, byClass c skill m { s with version := v } se = byClass c skill m s se := by
    intro c; unfold byClass; simp only [d1, d2, d3, d4, d5]
  unfold getBaseDamage
  simp only [e]

end ComputeDamage

theorem DamageSimulator.rowOf_version {s : Stats} {v : String} (h : v = "test" ↔ s.version = "test")
    (x : DamageInstance) : rowOf { s with version := v } x = rowOf s x := by
  unfold rowOf
  simp only [ComputeDamage.getBaseDamage_version h]
  rfl

theorem DamageSimulator.init_version {s : Stats} {v : String} (h : v = "test" ↔ s.version = "test")
    (xs : List DamageInstance) (n : ℕ) (wr ws : ℕ → ℕ → Draw) :
    init { s with version := v } xs n wr ws = init s xs n wr ws := by
  unfold init fill
  simp only [DamageSimulator.rowOf_version h]

end Ama
