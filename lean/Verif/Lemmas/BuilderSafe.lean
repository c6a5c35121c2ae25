import Verif.Spec.Safe
import Verif.Lemmas.DamageSafe
import Verif.Lemmas.TimelineSkills

/-!
# Lemmas for the absence of exceptions in the rotation builder
-/

namespace Ama

open Spec

/-! ## Whole numbers -/

theorem Spec.Whole.int (n : ℤ) : Whole (n : ℚ) := ⟨n, rfl⟩

theorem Spec.Whole.zero : Whole 0 := ⟨0, by simp⟩

theorem Spec.Whole.nat (n : ℕ) : Whole (n : ℚ) := ⟨n, by simp⟩

theorem Spec.Whole.add {x y : ℚ} (hx : Whole x) (hy : Whole y) : Whole (x + y) := by
  obtain ⟨a, rfl⟩ := hx
  obtain ⟨b, rfl⟩ := hy
  exact ⟨a + b, by push_cast; rfl⟩

theorem Spec.Whole.sub {x y : ℚ} (hx : Whole x) (hy : Whole y) : Whole (x - y) := by
  obtain ⟨a, rfl⟩ := hx
  obtain ⟨b, rfl⟩ := hy
  exact ⟨a - b, by push_cast; rfl⟩

theorem Spec.Whole.max {x y : ℚ} (hx : Whole x) (hy : Whole y) : Whole (max x y) := by
  rcases max_choice x y with h | h <;> rw [h] <;> assumption

theorem Spec.Whole.min {x y : ℚ} (hx : Whole x) (hy : Whole y) : Whole (min x y) := by
  rcases min_choice x y with h | h <;> rw [h] <;> assumption

theorem whole_sum {l : List ℚ} (h : ∀ x ∈ l, Whole x) : Whole l.sum := by
  induction l with
  | nil => exact .zero
  | cons a l ih =>
    rw [List.sum_cons]
    exact (h a (by simp)).add (ih (fun x hx => h x (List.mem_cons_of_mem _ hx)))

/-- A reduction of cast times by a whole number, or infinite. -/
def WholeTop (x : WithTop ℚ) : Prop := x = ⊤ ∨ ∃ y : ℚ, x = y ∧ Whole y

theorem wholeTop_zero : WholeTop 0 := .inr ⟨0, rfl, .zero⟩

theorem WholeTop.add {x y : WithTop ℚ} (hx : WholeTop x) (hy : WholeTop y) : WholeTop (x + y) := by
  rcases hx with rfl | ⟨a, rfl, ha⟩
  · exact .inl (top_add _)
  · rcases hy with rfl | ⟨b, rfl, hb⟩
    · exact .inl (add_top _)
    · exact .inr ⟨a + b, rfl, ha.add hb⟩

theorem wholeTop_sum {l : List (WithTop ℚ)} (h : ∀ x ∈ l, WholeTop x) : WholeTop l.sum := by
  induction l with
  | nil => exact wholeTop_zero
  | cons a l ih =>
    rw [List.sum_cons]
    exact (h a (by simp)).add (ih (fun x hx => h x (List.mem_cons_of_mem _ hx)))

/-- The reductions in an aggregate are whole. -/
def WholeAgg (b : StatusEffects) : Prop :=
  WholeTop b.flatCastTimeReduction ∧ Whole b.flatGcdRecastTimeReduction

theorem compileEffects_whole {P : SkillCore → Prop}
    {get : SkillCore → SkillModifier → Py (Option StatusEffectSpec)} {es : Effects} (h : Given get P es)
    (hw : ∀ a m s, P a → get a m = .ok (some s) → WholeEffect s) {priority : List String} {t : ℚ}
    {skill : SkillCore} {agg : StatusEffects} {c : String} {es' : Effects}
    (he : StatusEffectTracker.compileEffects priority t es skill.statusEffectDenylist skill.name =
      .ok (agg, c, es')) : WholeAgg agg := by
  obtain ⟨x, y, -, -, h3, -⟩ := compileEffects_spec h.1 he
  have hm : ∀ p ∈ specsOf es (contribNames priority t es skill.statusEffectDenylist skill.name),
      WholeEffect p.2 := by
    intro p hp
    obtain ⟨a, m, ha, -, hg, -⟩ := StatusEffectTracker.given_spec h hp
    exact hw a m p.2 ha hg
  rw [h3]
  refine ⟨?_, ?_⟩
  · refine WholeTop.add wholeTop_zero (wholeTop_sum ?_)
    intro z hz
    obtain ⟨p, hp, rfl⟩ := List.mem_map.1 hz
    exact (hm p hp).cast
  · refine Whole.add .zero (whole_sum ?_)
    intro z hz
    obtain ⟨p, hp, rfl⟩ := List.mem_map.1 hz
    exact (hm p hp).recast

namespace RotationBuilder

/-! ## Times -/

/-- The speed formula is defined. -/
def SpeedOk (stats : Stats) : Prop :=
  ∀ t, ∃ x, StatFns.getTimeUsingSpeedStat t stats.speedStat stats.version stats.level = .ok x

theorem speedOk_of {stats : Stats}
    (h : ∃ x, StatFns.getTimeUsingSpeedStat 0 stats.speedStat stats.version stats.level = .ok x) :
    SpeedOk stats := by
  obtain ⟨x, h⟩ := h
  intro t
  unfold StatFns.getTimeUsingSpeedStat at h ⊢
  obtain ⟨a, h1, h⟩ := Py.bind_eq_ok.1 h
  obtain ⟨b, h2, h⟩ := Py.bind_eq_ok.1 h
  obtain ⟨c, h3, h⟩ := Py.bind_eq_ok.1 h
  rw [h1, h2, h3]
  exact ⟨_, rfl⟩

theorem getCastTime_total {stats : Stats} (hs : SpeedOk stats) {ts : TimingSpec} (ht : WholeTiming ts)
    (m : SkillModifier) {b : StatusEffects} (hb : WholeAgg b) :
    ∃ c, getCastTime stats (some ts) m b = .ok c ∧ Whole c := by
  unfold getCastTime
  by_cases hi : m.ignoreCastTimes = true
  · rw [if_pos hi]
    exact ⟨0, rfl, .zero⟩
  · rw [if_neg hi]
    have hfin : ∀ cast : ℚ, Whole cast → ∃ c,
        (match b.flatCastTimeReduction with
          | ⊤ => (pure 0 : Py ℚ)
          | (y : ℚ) => pure (max 0 ((if ts.affectedByHasteBuffs = true then
              (Utils.truncateToDigit (cast * b.hasteTimeMult *
                (1 - stats.processed.traitHasteTimeReduction)) 2 : ℚ) else cast) - y))) = .ok c ∧
          Whole c := by
      intro cast hc
      rcases hb.1 with h | ⟨y, h, hy⟩
      · rw [h]
        exact ⟨0, rfl, .zero⟩
      · rw [h]
        refine ⟨_, rfl, Whole.zero.max (Whole.sub ?_ hy)⟩
        split_ifs
        · exact .int _
        · exact hc
    cases hsp : ts.affectedBySpeedStat with
    | false =>
      simp only [hsp, Bool.false_eq_true, if_false, Py.pure_eq, Py.ok_bind]
      exact hfin _ ht.cast
    | true =>
      obtain ⟨x, hx⟩ := hs ts.baseCastTime
      simp only [hsp, if_true, hx, Py.pure_eq, Py.ok_bind]
      exact hfin _ (.int x)

theorem recastTime_total {stats : Stats} (hs : SpeedOk stats) {ts : TimingSpec} (ht : WholeTiming ts)
    {b : StatusEffects} (hb : WholeAgg b) (d : StatusEffects) :
    ∃ c, recastTime stats ts b d = .ok c ∧ Whole c := by
  unfold recastTime
  have hfin : ∀ cast : ℚ, Whole cast → ∃ c,
      (pure (if ts.gcdBaseRecastTime = GameConsts.GCD_RECAST_TIME then
          max ((if ts.affectedByHasteBuffs = true then
            (Utils.truncateToDigit (cast * b.hasteTimeMult * d.hasteTimeMult *
              (1 - stats.processed.traitHasteTimeReduction)) 2 : ℚ) else cast) -
              b.flatGcdRecastTimeReduction) GameConsts.MIN_GCD_RECAST_TIME
        else (if ts.affectedByHasteBuffs = true then
            (Utils.truncateToDigit (cast * b.hasteTimeMult * d.hasteTimeMult *
              (1 - stats.processed.traitHasteTimeReduction)) 2 : ℚ) else cast) -
              b.flatGcdRecastTimeReduction) : Py ℚ) = .ok c ∧ Whole c := by
    intro cast hc
    have h1 : Whole ((if ts.affectedByHasteBuffs = true then
            (Utils.truncateToDigit (cast * b.hasteTimeMult * d.hasteTimeMult *
              (1 - stats.processed.traitHasteTimeReduction)) 2 : ℚ) else cast) -
              b.flatGcdRecastTimeReduction) := by
      refine Whole.sub ?_ hb.2
      split_ifs
      · exact .int _
      · exact hc
    refine ⟨_, rfl, ?_⟩
    by_cases hg : ts.gcdBaseRecastTime = GameConsts.GCD_RECAST_TIME
    · rw [if_pos hg]
      exact h1.max ⟨1500, by norm_num [GameConsts.MIN_GCD_RECAST_TIME]⟩
    · rw [if_neg hg]
      exact h1
  cases hsp : ts.affectedBySpeedStat with
  | false =>
    simp only [hsp, Bool.false_eq_true, if_false, Py.pure_eq, Py.ok_bind]
    exact hfin _ ht.recast
  | true =>
    obtain ⟨x, hx⟩ := hs ts.gcdBaseRecastTime
    simp only [hsp, if_true, hx, Py.pure_eq, Py.ok_bind]
    exact hfin _ (.int x)

theorem applicationTimeOf_total {t c : ℚ} (ht : Whole t) (hc : Whole c) (m : SkillModifier)
    {ts : TimingSpec} (hw : WholeTiming ts) :
    ∃ a, applicationTimeOf t c m (some ts) = .ok a ∧ Whole a := by
  unfold applicationTimeOf
  by_cases hi : m.ignoreApplicationDelay = true
  · rw [if_pos hi]
    exact ⟨_, rfl, ht.add hc⟩
  · rw [if_neg hi]
    refine ⟨_, rfl, (ht.add hc).add ?_⟩
    by_cases h1 : c > 1 / 1000000
    · rw [if_pos h1]
      exact Whole.zero.max (Whole.add ⟨-500, by
        norm_num [GameConsts.DAMAGE_SNAPSHOT_TIME_BEFORE_CAST_FINISHES]⟩ hw.delay)
    · rw [if_neg h1]
      exact hw.delay

/-! ## Single presses -/

variable {P : SkillCore → Prop} {gauges : List String}

/-- The trackers are in a state in which they do not raise. -/
def SafeTr (P : SkillCore → Prop) (gauges : List String) (tr : Trackers) : Prop :=
  CalmTracker P tr.se ∧ HasGauges tr.res gauges

/-- All effects of skills in `P` are whole. -/
def WholeIn (P : SkillCore → Prop) : Prop := ∀ a, P a → WholeEffects a

theorem resolveConditions_total {tr : Trackers} (h : SafeTr P gauges tr) (hw : WholeIn P) (t : ℚ)
    (skill : Skill) (m : SkillModifier) :
    ∃ b d m' tr', resolveConditions t skill m tr = .ok (b, d, m', tr') ∧ SafeTr P gauges tr' ∧
      WholeAgg b ∧ m'.bonusPercent = m.bonusPercent := by
  have h0 := StatusEffectTracker.calm_expire h.1 t
  obtain ⟨agg, c, es, h1, h2⟩ := StatusEffectTracker.compileEffects_total h0.buffs h0.agree.buffs
    (tr.se.expire t).priority t skill.toSkillCore
  have hwb := compileEffects_whole h0.buffs (fun a m s ha hs => hw a ha m s (.inl hs)) h1
  have h3 : CalmTracker P { tr.se.expire t with buffs := es } := ⟨h0.agree, h2, h0.debuffs⟩
  obtain ⟨⟨d, cd⟩, se, h4, h5⟩ := StatusEffectTracker.compileDebuffs_total h3 t skill.toSkillCore
    SimConsts.DEFAULT_TARGET
  obtain ⟨cr, res, h6, h7⟩ := JobResourceTracker.compile_total h.2 t skill.name
  refine ⟨agg, d, ((m.addToCondition c).addToCondition cd).addToCondition cr, ⟨se, res⟩, ?_, ⟨h5, h7⟩,
    hwb, ?_⟩
  · unfold resolveConditions StatusEffectTracker.compileBuffs
    simp only [h1, Py.ok_bind, Py.pure_eq, h4, h6]
  · rw [addToCondition_bonus, addToCondition_bonus,
      addToCondition_bonus]

theorem comboUpdate_total {g : List String} (combo : ComboTracker) (t : ℚ) {skill : SkillCore}
    {m₀ m : SkillModifier} (hh : Harmless g m₀ skill) (hm : m₀.withCondition ⊆ m.withCondition) :
    ∃ c combo', combo.compileAndUpdate t skill m = .ok (c, combo') := by
  obtain ⟨l, hl⟩ := hh.combo m hm
  obtain ⟨r, tr, h1, -⟩ := foldlM_combo_total t skill.name m l true combo
  unfold ComboTracker.compileAndUpdate
  rw [hl, Py.ok_bind, h1]
  exact ⟨_, _, rfl⟩

theorem resolve_total {g : List String} {tr : Trackers} (h : SafeTr P gauges tr) (hw : WholeIn P) (t : ℚ)
    {skill : Skill} {m : SkillModifier} (hh : Harmless g m skill.toSkillCore)
    (hm : m.bonusPercent = none) (combo : ComboTracker) :
    ∃ r, resolve t skill m tr combo = .ok r ∧ SafeTr P gauges r.tr ∧ WholeAgg r.buffs := by
  obtain ⟨b, d, m1, tr1, h1, h2, h3, h4⟩ := resolveConditions_total h hw t skill m
  obtain ⟨c, combo1, h5⟩ := comboUpdate_total combo t hh (resolveConditions_fields h1).1
  obtain ⟨m2, h6⟩ := addPositional_total skill (m := m1.addToCondition c)
    (by rw [addToCondition_bonus, h4, hm])
  refine ⟨⟨b, d, m2, tr1, combo1⟩, ?_, h2, h3⟩
  unfold resolve
  simp only [h1, Py.ok_bind, h5, h6, Py.pure_eq]

/-- The log only has dots that can be processed. -/
def DotOk (x : String × FollowUp × DotApp) : Prop :=
  x.2.1.dotDuration.isSome = true ∧ Whole x.2.2.application ∧
    ∃ r, x.2.1.skill.getDamageSpec {} = .ok r

theorem pyIdx_total {l : List String} (h : l ≠ []) : ∃ x, pyIdx l 0 = .ok x := by
  cases l with
  | nil => exact absurd rfl h
  | cons a l => exact ⟨a, rfl⟩

theorem followUps_total {snap app : ℚ} (ha : Whole app) {targets : List String} (ht : targets ≠ [])
    {fs : List (FollowUp × ℕ)} (hf : ∀ fi ∈ fs, Harmless gauges {} fi.1.skill ∧ P fi.1.skill)
    {tr : Trackers} (h : SafeTr P gauges tr) :
    ∃ l tr', foldLog (followUpLog snap app targets) tr fs = .ok (l, tr') ∧ SafeTr P gauges tr' ∧
      ∀ x ∈ l.dots, DotOk x := by
  induction fs generalizing tr with
  | nil => exact ⟨{}, tr, rfl, h, by simp⟩
  | cons fi fs ih =>
    obtain ⟨hh, hP⟩ := hf fi (by simp)
    have step : ∃ l tr', followUpLog snap app targets tr fi = .ok (l, tr') ∧ SafeTr P gauges tr' ∧
        ∀ x ∈ l.dots, DotOk x := by
      unfold followUpLog
      by_cases hd : fi.1.dotDuration.isSome = true
      · simp only [hd, if_true]
        refine ⟨_, _, rfl, h, ?_⟩
        intro x hx
        obtain ⟨tg, -, rfl⟩ := List.mem_map.1 hx
        exact ⟨hd, ha, hh.damage {} (Finset.Subset.refl _)⟩
      · simp only [hd, if_false, Bool.false_eq_true]
        have hgen : ∀ ts : List String, ∃ l tr',
            (tr.se.add (app + ↑fi.1.delayAfterParentApplication) fi.1.skill {} ts >>= fun se =>
              tr.res.addResource (app + ↑fi.1.delayAfterParentApplication) fi.1.skill {} >>=
              fun res => (pure (({ adds := [followUpEvent fi.1 (↑fi.2 + 1) snap app ts] } : Log),
                ({ se := se, res := res } : Trackers)) : Py _)) = .ok (l, tr') ∧
              SafeTr P gauges tr' ∧ ∀ x ∈ l.dots, DotOk x := by
          intro ts
          obtain ⟨se, h1, h2⟩ := StatusEffectTracker.add_total h.1 hP
            (hh.buff {} (Finset.Subset.refl _)) (hh.debuff {} (Finset.Subset.refl _))
            (app + ↑fi.1.delayAfterParentApplication) ts
          obtain ⟨res, h3, h4⟩ := JobResourceTracker.addResource_total h.2 hh
            (m := {}) (Finset.Subset.refl _) (app + ↑fi.1.delayAfterParentApplication)
          rw [h1, Py.ok_bind, h3]
          exact ⟨_, _, rfl, ⟨h2, h4⟩, by simp⟩
        by_cases hp : fi.1.primaryTargetOnly = true
        · simp only [hp, if_true]
          obtain ⟨x, hx⟩ := pyIdx_total ht
          simp only [hx, Py.ok_bind, Py.pure_eq]
          exact hgen [x]
        · simp only [hp, if_false, Bool.false_eq_true]
          exact hgen targets
    obtain ⟨l1, tr1, h1, h2, h3⟩ := step
    obtain ⟨l2, tr2, h4, h5, h6⟩ := ih (fun fi hfi => hf fi (List.mem_cons_of_mem _ hfi)) h2
    refine ⟨l1.app l2, tr2, ?_, h5, ?_⟩
    · unfold foldLog
      simp only [h1, Py.ok_bind, h4, Py.pure_eq]
    · intro x hx
      rcases List.mem_append.1 hx with hx | hx
      · exact h3 x hx
      · exact h6 x hx

/-- The skill and its follow-ups are in `P`. -/
def Within (P : SkillCore → Prop) (skill : Skill) : Prop :=
  P skill.toSkillCore ∧ ∀ m fs, skill.getFollowUpSkills m = .ok fs → ∀ f ∈ fs, P f.skill

theorem processSkillLog_total {stats : Stats} (hs : SpeedOk stats) {t : ℚ} (ht : Whole t) {skill : Skill}
    {m₀ m : SkillModifier} (hp : Playable gauges m₀ skill) (hP : Within P skill)
    (hm : m₀.withCondition ⊆ m.withCondition) {tr : Trackers} (h : SafeTr P gauges tr)
    {b : StatusEffects} (hb : WholeAgg b) {targets : List String} (hg : targets ≠ []) :
    ∃ l tr', processSkillLog stats t skill m tr b targets = .ok (l, tr') ∧ SafeTr P gauges tr' ∧
      ∀ x ∈ l.dots, DotOk x := by
  obtain ⟨ts, h1, h2⟩ := hp.timing m hm
  obtain ⟨c, h3, h4⟩ := getCastTime_total hs h2 m hb
  obtain ⟨a, h5, h6⟩ := applicationTimeOf_total ht h4 m h2
  obtain ⟨se, h7, h8⟩ := StatusEffectTracker.add_total h.1 hP.1 (hp.harmless.buff m hm)
    (hp.harmless.debuff m hm) a targets
  obtain ⟨res, h9, h10⟩ := JobResourceTracker.addResource_total h.2 hp.harmless hm
    (t + max 0 (c - GameConsts.DAMAGE_SNAPSHOT_TIME_BEFORE_CAST_FINISHES))
  obtain ⟨fs, h11, h12⟩ := hp.followUps m hm
  obtain ⟨l, tr', h13, h14, h15⟩ := followUps_total (P := P) (gauges := gauges)
    (snap := t + max 0 (c - GameConsts.DAMAGE_SNAPSHOT_TIME_BEFORE_CAST_FINISHES)) h6 hg
    (fs := fs.zipIdx) (by
      intro fi hfi
      have : fi.1 ∈ fs := List.fst_mem_of_mem_zipIdx hfi
      exact ⟨h12 _ this, hP.2 m fs h11 _ this⟩) (tr := ⟨se, res⟩) ⟨h8, h10⟩
  unfold processSkillLog
  simp only [h1, Py.ok_bind, h3, h5, h7, h9, h11, h13, Py.pure_eq]
  refine ⟨_, tr', rfl, h14, fun x hx => ?_⟩
  rcases List.mem_append.1 hx with hx | hx
  · cases hx
  · exact h15 x hx

/-- A press that can be processed. -/
structure Fine (P : SkillCore → Prop) (gauges : List String) (skill : Skill) (m : SkillModifier)
    (targets : List String) : Prop where
  playable : Playable gauges m skill
  within : Within P skill
  bonus : m.bonusPercent = none
  targets : targets ≠ []

theorem timedStepLog_total {stats : Stats} (hs : SpeedOk stats) (hw : WholeIn P) {p : TimedPress}
    (hp : Fine P gauges p.skill p.modifier p.targets) {s : Trackers × ComboTracker}
    (h : SafeTr P gauges s.1) :
    ∃ l s', timedStepLog stats s p = .ok (l, s') ∧ SafeTr P gauges s'.1 ∧ ∀ x ∈ l.dots, DotOk x := by
  obtain ⟨r, h1, h2, h3⟩ := resolve_total h hw p.t hp.playable.harmless hp.bonus s.2
  obtain ⟨tg, h4⟩ := pyIdx_total hp.targets
  obtain ⟨l, tr, h5, h6, h7⟩ := processSkillLog_total hs (.int p.t) hp.playable hp.within
    (resolve_fields h1).1 h2 h3 hp.targets
  unfold timedStepLog
  simp only [h1, Py.ok_bind, h4, h5, Py.pure_eq]
  refine ⟨_, (tr, r.combo), rfl, h6, fun x hx => ?_⟩
  rcases List.mem_append.1 hx with hx | hx
  · cases hx
  · exact h7 x hx

/-- The state of the loop over the sequence is fine. -/
def SafeSeq (P : SkillCore → Prop) (gauges : List String) (st : SeqRest) : Prop :=
  SafeTr P gauges st.tr ∧ Whole st.currT ∧ ∀ x : ℚ, st.nextGcd = x → Whole x

theorem seqStepLog_total {stats : Stats} (hs : SpeedOk stats) (hw : WholeIn P) {p : SeqPress}
    (hp : Fine P gauges p.skill p.modifier p.targets) {st : SeqRest} (h : SafeSeq P gauges st) :
    ∃ l st', seqStepLog stats st p = .ok (l, st') ∧ SafeSeq P gauges st' ∧ ∀ x ∈ l.dots, DotOk x := by
  have ht : Whole (pressTime (p.skill.isGCD.getD false) st.currT st.nextGcd) := by
    unfold pressTime
    split_ifs
    · split
      · exact h.2.1
      · next x hx => exact h.2.1.max (h.2.2 x hx)
    · exact h.2.1
  obtain ⟨r, h1, h2, h3⟩ := resolve_total h.1 hw
    (pressTime (p.skill.isGCD.getD false) st.currT st.nextGcd) hp.playable.harmless hp.bonus st.combo
  obtain ⟨tg, h4⟩ := pyIdx_total hp.targets
  obtain ⟨l, tr, h5, h6, h7⟩ := processSkillLog_total hs ht hp.playable hp.within
    (resolve_fields h1).1 h2 h3 hp.targets
  obtain ⟨ts, h8, h9⟩ := hp.playable.timing _ (resolve_fields h1).1
  obtain ⟨c, h10, h11⟩ := getCastTime_total hs h9 r.modifier h3
  obtain ⟨rc, h12, h13⟩ := recastTime_total hs h9 h3 r.debuffs
  unfold seqStepLog
  simp only [h1, Py.ok_bind, h8, h4, h5, needTiming]
  by_cases hg : p.skill.isGCD.getD false = true
  · rw [if_pos hg]
    simp only [h12, h10, Py.ok_bind, Py.pure_eq]
    refine ⟨_, _, rfl, ⟨h6, ht.add (h11.add h9.lock), ?_⟩, fun x hx => ?_⟩
    · intro x hx
      have := WithBot.coe_injective hx
      rw [← this]
      exact ht.add h13
    · rcases List.mem_append.1 hx with hx | hx
      · cases hx
      · exact h7 x hx
  · rw [if_neg hg]
    refine ⟨_, _, rfl, ⟨h6, ht.add h9.lock, h.2.2⟩, fun x hx => ?_⟩
    rcases List.mem_append.1 hx with hx | hx
    · cases hx
    · exact h7 x hx

/-! ## The queues -/

theorem foldLog_total {S A : Type} {step : S → A → Py (Log × S)} {Q : S → Prop} {l : List A}
    (hstep : ∀ a ∈ l, ∀ s, Q s → ∃ g s', step s a = .ok (g, s') ∧ Q s' ∧ ∀ x ∈ g.dots, DotOk x)
    {s : S} (hs : Q s) :
    ∃ g s', foldLog step s l = .ok (g, s') ∧ Q s' ∧ ∀ x ∈ g.dots, DotOk x := by
  induction l generalizing s with
  | nil => exact ⟨{}, s, rfl, hs, by simp⟩
  | cons a l ih =>
    obtain ⟨g1, s1, h1, h2, h3⟩ := hstep a (by simp) s hs
    obtain ⟨g2, s2, h4, h5, h6⟩ := ih (fun b hb => hstep b (List.mem_cons_of_mem _ hb)) h2
    refine ⟨g1.app g2, s2, ?_, h5, ?_⟩
    · unfold foldLog
      simp only [h1, Py.ok_bind, h4, Py.pure_eq]
    · intro x hx
      rcases List.mem_append.1 hx with hx | hx
      · exact h3 x hx
      · exact h6 x hx

theorem timedPress_ltTotal {q : List TimedPress}
    (h : ∀ a ∈ q, ∀ b ∈ q, a.t = b.t → a.skill.name = b.skill.name → a.skill = b.skill) :
    Heapq.LtTotalOn TimedPress.pyLt q := by
  intro a ha b hb
  unfold TimedPress.pyLt
  by_cases ht : a.t = b.t
  · rw [if_neg (by simpa using ht)]
    by_cases hs : a.skill = b.skill
    · rw [if_neg (by simpa using hs)]
      split_ifs <;> exact ⟨_, rfl⟩
    · rw [if_pos hs]
      have hn : a.skill.name ≠ b.skill.name := fun hn => hs (h a ha b hb ht hn)
      unfold Skill.pyLt
      rw [if_pos hn]
      exact ⟨_, rfl⟩
  · rw [if_pos ht]
    exact ⟨_, rfl⟩

theorem timedLoopLog_total {stats : Stats} (hs : SpeedOk stats) (hw : WholeIn P) {n : ℕ}
    {q : List TimedPress} (hn : q.length ≤ n) (hq : Heapq.IsHeap TimedPress.t q)
    (hp : ∀ p ∈ q, Fine P gauges p.skill p.modifier p.targets)
    (hl : ∀ a ∈ q, ∀ b ∈ q, a.t = b.t → a.skill.name = b.skill.name → a.skill = b.skill)
    {s : Trackers × ComboTracker} (h : SafeTr P gauges s.1) :
    ∃ l s', timedLoopLog stats n s q = .ok (l, s') := by
  induction n generalizing q s with
  | zero =>
    unfold timedLoopLog
    rw [if_neg (by omega)]
    exact ⟨_, _, rfl⟩
  | succ n ih =>
    unfold timedLoopLog
    by_cases hq0 : q.length > 0
    · rw [if_pos hq0]
      obtain ⟨p, q', h1⟩ := Heapq.heappop_total (List.length_pos_iff.1 hq0) (timedPress_ltTotal hl)
      obtain ⟨k1, k2, -⟩ := Heapq.heappop_spec timedPress_ltSound hq h1
      obtain ⟨l1, s1, h2, h3, -⟩ := timedStepLog_total hs hw (hp p (k2.mem_iff.2 (by simp))) h
      have hsub : ∀ a ∈ q', a ∈ q := fun a ha => k2.mem_iff.2 (List.mem_cons_of_mem _ ha)
      obtain ⟨l2, s2, h4⟩ := ih (q := q') (by
          have := k2.length_eq
          simp only [List.length_cons] at this
          omega) k1 (fun a ha => hp a (hsub a ha))
        (fun a ha b hb => hl a (hsub a ha) b (hsub b hb)) h3
      simp only [h1, Py.ok_bind, h2, h4, Py.pure_eq]
      exact ⟨_, _, rfl⟩
    · rw [if_neg hq0]
      exact ⟨_, _, rfl⟩

/-! ## Whole rotations -/

/-- What is needed of a builder, with the set of skills made explicit. -/
structure Sound (P : SkillCore → Prop) (gauges : List String) (rb : RotationBuilder) : Prop where
  speed : SpeedOk rb.stats
  whole : WholeIn P
  agree : Agree P
  settings : ∃ s, rb.lib.getAllResourceSettings rb.stats.jobClass = .ok s ∧ Dict.keys s = gauges
  breakers : ∃ b, rb.lib.getAllComboBreakers rb.stats.jobClass = .ok b
  start : ∀ x, rb.fightStart = some x → Whole x
  timed : ∀ p ∈ rb.qTimed, Fine P gauges p.skill p.modifier p.targets
  seq : ∀ p ∈ rb.qSequence, Fine P gauges p.skill p.modifier p.targets

theorem sound_start {rb : RotationBuilder} (h : Sound P gauges rb) : Sound P gauges rb.start := by
  obtain ⟨e1, e2, e3, e4, e5, e6, e7, e8, e9, e10, e11, e12, e13, e14, e15⟩ := start_fields rb
  exact ⟨by rw [e1]; exact h.speed, h.whole, h.agree, by rw [e1, e2]; exact h.settings,
    by rw [e1, e2]; exact h.breakers, by rw [e6]; exact h.start, by rw [e10]; exact h.timed,
    by rw [e11]; exact h.seq⟩

theorem initTrackers_total {rb : RotationBuilder} (h : Sound P gauges rb) :
    ∃ tc, rb.initTrackers = .ok tc ∧ SafeTr P gauges tc.1 := by
  obtain ⟨s, h1, h2⟩ := h.settings
  obtain ⟨b, h3⟩ := h.breakers
  unfold initTrackers
  rw [h1, Py.ok_bind, h3]
  refine ⟨_, rfl, ⟨h.agree, StatusEffectTracker.given_nil, by simp⟩, ?_, ?_⟩
  · simpa [JobResourceTracker.init, Dict.keys, Function.comp_def] using h2
  · intro g hg
    rw [← h2] at hg
    exact hg

theorem seqLog_total {rb : RotationBuilder} (h : Sound P gauges rb) :
    ∃ l, rb.seqLog = .ok l ∧ ∀ x ∈ l.dots, DotOk x := by
  obtain ⟨tc, h1, h2⟩ := initTrackers_total h
  obtain ⟨l, st, h3, -, h5⟩ := foldLog_total (Q := SafeSeq P gauges) (step := seqStepLog rb.stats)
    (l := rb.qSequence) (fun p hp st hst => seqStepLog_total h.speed h.whole (h.seq p hp) hst)
    (s := { tr := tc.1, combo := tc.2, currT := rb.fightStart.getD 0, nextGcd := ⊥ })
    ⟨h2, by
      cases hf : rb.fightStart with
      | none => exact .zero
      | some x => exact h.start x hf, fun x hx => by cases hx⟩
  unfold seqLog
  simp only [h1, Py.ok_bind, h3, Py.pure_eq]
  exact ⟨l, rfl, h5⟩

theorem timedLog_dots {rb : RotationBuilder} (h : Sound P gauges rb) {l : Log}
    (hl : rb.timedLog = .ok l) : ∀ x ∈ l.dots, DotOk x := by
  obtain ⟨tc, h1, h2⟩ := initTrackers_total h
  unfold timedLog at hl
  simp only [h1, Py.ok_bind] at hl
  obtain ⟨⟨l1, s1⟩, h3, hl⟩ := Py.bind_eq_ok.1 hl
  cases hl
  obtain ⟨order, us, -, -, g3, g4, -⟩ := timedLoopLog_spec _ _ _ _ _ _
    (Heapq.isHeap_of_sorted (sortBy_sorted _ _)) h3
  have hmem : ∀ p ∈ order, p ∈ rb.qTimed := fun p hp =>
    (g3.trans (sortBy_perm _ _)).mem_iff.1 hp
  obtain ⟨l', s', h5, -, h6⟩ := foldLog_total (Q := fun s : Trackers × ComboTracker => SafeTr P gauges s.1)
    (step := timedStepLog rb.stats) (l := order)
    (fun p hp st hst => timedStepLog_total h.speed h.whole (h.timed p (hmem p hp)) hst) (s := tc) h2
  rw [g4] at h5
  cases h5
  exact h6

theorem timedLog_total {rb : RotationBuilder} (h : Sound P gauges rb)
    (hn : ∀ p ∈ rb.qTimed, ∀ q ∈ rb.qTimed, p.t = q.t → p.skill.name = q.skill.name → p.skill = q.skill) :
    ∃ l, rb.timedLog = .ok l := by
  obtain ⟨tc, h1, h2⟩ := initTrackers_total h
  have hmem : ∀ p ∈ sortBy (fun p : TimedPress => p.t) rb.qTimed, p ∈ rb.qTimed :=
    fun p hp => (sortBy_perm _ _).mem_iff.1 hp
  obtain ⟨l, s, h3⟩ := timedLoopLog_total (P := P) (gauges := gauges) h.speed h.whole le_rfl
    (Heapq.isHeap_of_sorted (sortBy_sorted (fun p : TimedPress => p.t) rb.qTimed))
    (fun p hp => h.timed p (hmem p hp)) (fun a ha b hb => hn a (hmem a ha) b (hmem b hb)) (s := tc) h2
  unfold timedLog
  simp only [h1, Py.ok_bind, h3, Py.pure_eq]
  exact ⟨_, rfl⟩

theorem queueLog_dots {rb : RotationBuilder} (h : Sound P gauges rb) {l : Log}
    (hl : rb.queueLog = .ok l) : ∀ x ∈ l.dots, DotOk x := by
  obtain ⟨l1, h1, h2⟩ := seqLog_total h
  unfold queueLog at hl
  rw [h1, Py.ok_bind] at hl
  obtain ⟨l2, h3, hl⟩ := Py.bind_eq_ok.1 hl
  cases hl
  intro x hx
  rcases List.mem_append.1 hx with hx | hx
  · exact h2 x hx
  · exact timedLog_dots h h3 x hx

theorem queueLog_total {rb : RotationBuilder} (h : Sound P gauges rb)
    (hn : ∀ p ∈ rb.qTimed, ∀ q ∈ rb.qTimed, p.t = q.t → p.skill.name = q.skill.name → p.skill = q.skill) :
    ∃ l, rb.queueLog = .ok l := by
  obtain ⟨l1, h1, -⟩ := seqLog_total h
  obtain ⟨l2, h2⟩ := timedLog_total h hn
  unfold queueLog
  rw [h1, Py.ok_bind, h2]
  exact ⟨_, rfl⟩

/-! ### Dots -/

theorem flatM_total {A B : Type} {g : A → Py (List B)} {l : List A} (h : ∀ a ∈ l, ∃ x, g a = .ok x) :
    ∃ r, flatM g l = .ok r := by
  induction l with
  | nil => exact ⟨[], rfl⟩
  | cons a l ih =>
    obtain ⟨x, hx⟩ := h a (by simp)
    obtain ⟨y, hy⟩ := ih (fun b hb => h b (List.mem_cons_of_mem _ hb))
    unfold flatM
    rw [hx, Py.ok_bind, hy]
    exact ⟨_, rfl⟩

theorem startOfDots_whole (snap : Option ℚ) {x : ℚ} (h : Whole x) : Whole (dotStart snap x) := by
  unfold dotStart
  cases snap with
  | none => exact h
  | some s =>
    simp only
    split_ifs
    · exact h
    · exact .int _

theorem pyRange_whole {a b : ℚ} (ha : Whole a) (hb : Whole b) (step : ℕ) :
    ∃ l, pyRange a b step = .ok l := by
  obtain ⟨x, rfl⟩ := ha
  obtain ⟨y, rfl⟩ := hb
  exact ⟨_, pyRange_int x y step⟩

theorem rangeAdds_total {snap : Option ℚ} {f : FollowUp} {target : String} {last : Option ℚ}
    {rs : List DotRange} (h : ∀ r ∈ rs, Whole r.start ∧ Whole r.stop) (n : ℕ) :
    ∃ as, rangeAdds snap f target last n rs = .ok as := by
  induction rs generalizing n with
  | nil => exact ⟨[], rfl⟩
  | cons r rs ih =>
    obtain ⟨h1, h2⟩ := h r (by simp)
    obtain ⟨l, hl⟩ := pyRange_whole (startOfDots_whole snap h1) h2 GameConsts.DOT_TICK_INTERVAL
    obtain ⟨as, has⟩ := ih (fun r hr => h r (List.mem_cons_of_mem _ hr))
      (n + (l.filter (fun t => !tickSkipped last t)).length)
    unfold rangeAdds
    simp only [hl, Py.ok_bind, has, Py.pure_eq]
    exact ⟨_, rfl⟩

theorem consolidate_whole {rs : List DotRange} (h : ∀ r ∈ rs, Whole r.start ∧ Whole r.stop) :
    ∀ r ∈ consolidate rs, Whole r.start ∧ Whole r.stop := by
  induction rs with
  | nil => simp [consolidate]
  | cons a rs ih =>
    cases rs with
    | nil => exact h
    | cons b rs =>
      intro r hr
      unfold consolidate at hr
      rcases List.mem_cons.1 hr with rfl | hr
      · exact ⟨(h a (by simp)).1, (h a (by simp)).2.min (h b (by simp)).1⟩
      · exact ih (fun r hr => h r (List.mem_cons_of_mem _ hr)) r hr

/-- Every recorded dot can be processed, and dots without an application have a duration. -/
def DotsOk (d : Dots) : Prop :=
  (∀ x, HasApp d x → DotOk x) ∧ ∀ td ∈ d, ∀ fa ∈ td.2, fa.2 ≠ []

theorem allDotAdds_total {snap last : Option ℚ} {d : Dots} (h : DotsOk d) :
    ∃ as, allDotAdds snap last d = .ok as := by
  unfold allDotAdds
  refine flatM_total fun td htd => flatM_total fun fa hfa => ?_
  have hx : ∀ a ∈ fa.2, DotOk (td.1, fa.1, a) := fun a ha => h.1 _ ⟨td, htd, rfl, fa, hfa, rfl, ha⟩
  obtain ⟨a, ha⟩ := List.exists_mem_of_ne_nil _ (h.2 td htd fa hfa)
  obtain ⟨dur, hd⟩ := Option.isSome_iff_exists.1 (hx a ha).1
  have hd : fa.1.dotDuration = some dur := hd
  unfold dotAdds
  rw [hd]
  refine rangeAdds_total (consolidate_whole ?_) 0
  intro r hr
  obtain ⟨a, ha, rfl⟩ := mem_baseDotTimings hr
  exact ⟨(hx a ha).2.1, (hx a ha).2.1.add (.int dur)⟩

theorem dotsOk_addDotApp {d : Dots} (h : DotsOk d) {f : FollowUp} {a : DotApp} {tg : String}
    (hx : DotOk (tg, f, a)) : DotsOk (addDotApp d f a tg) := by
  refine ⟨fun x hh => ?_, ?_⟩
  · rcases hasApp_addDotApp hh with h1 | rfl
    · exact h.1 x h1
    · exact hx
  · intro td htd fa hfa
    unfold addDotApp at htd
    rcases Dict.mem_set htd with rfl | htd
    · rcases Dict.mem_set hfa with rfl | hfa
      · simp
      · cases hg : Dict.get? d tg with
        | none =>
          rw [hg] at hfa
          simp at hfa
        | some per =>
          rw [hg] at hfa
          exact h.2 (tg, per) (Dict.mem_of_get? hg) fa hfa
    · exact h.2 td htd fa hfa

theorem dotsOk_addDots {d : Dots} (h : DotsOk d) {l : List (String × FollowUp × DotApp)}
    (hl : ∀ x ∈ l, DotOk x) : DotsOk (addDots d l) := by
  unfold addDots
  induction l generalizing d with
  | nil => exact h
  | cons x l ih =>
    rw [List.foldl_cons]
    exact ih (dotsOk_addDotApp h (hl x (by simp))) (fun y hy => hl y (List.mem_cons_of_mem _ hy))

/-! ### The end -/

/-- The damage of the event can be looked up. -/
def EventOk (a : NewEvent) : Prop := ∃ r, a.skill.getDamageSpec a.modifier = .ok r

theorem validTargets_total {rb : RotationBuilder} (hd : ∀ ws, rb.downtime ≠ .tuple ws) {e : Event}
    (he : ∃ r, e.skill.getDamageSpec e.modifier = .ok r) (ts : List String) :
    ∃ r, rb.validTargets e ts = .ok r := by
  have hwin : ∀ t tg c, ∃ r, rb.inDowntime t tg c = .ok r := by
    intro t tg c
    unfold inDowntime windowsFor
    cases h : rb.downtime with
    | tuple ws => exact absurd h (hd ws)
    | dict d => exact ⟨_, rfl⟩
    | known a b => exact ⟨_, rfl⟩
  obtain ⟨s, hs⟩ := he
  induction ts with
  | nil => exact ⟨[], rfl⟩
  | cons t ts ih =>
    obtain ⟨r, hr⟩ := ih
    have hk : ∃ k, rb.targetKept e t = .ok k := by
      unfold targetKept
      rw [hs, Py.ok_bind]
      cases s with
      | none => exact ⟨_, rfl⟩
      | some spec =>
        obtain ⟨a, ha⟩ := hwin (Events.applicationTime e) t spec.damageClass
        obtain ⟨b, hb⟩ := hwin e.primary t spec.damageClass
        simp only [ha, Py.ok_bind, hb]
        cases a <;> exact ⟨_, rfl⟩
    obtain ⟨k, hk⟩ := hk
    unfold validTargets
    rw [hk, Py.ok_bind, hr]
    exact ⟨_, rfl⟩

theorem removeLoop_total {rb : RotationBuilder} (hd : ∀ ws, rb.downtime ≠ .tuple ws) {evs : Events}
    (ho : evs.Ok) (he : ∀ e ∈ evs.q, ∃ r, e.skill.getDamageSpec e.modifier = .ok r) :
    ∃ r, rb.removeLoop evs.q.length evs {} = .ok r := by
  obtain ⟨out, -, h2, -, h4⟩ := removeLoop_spec rb evs.q.length evs {} ho le_rfl
  rw [h4]
  obtain ⟨r, hr⟩ := flatM_total (g := rb.keepOne) (l := out) (by
    intro e hee
    obtain ⟨ts, hts⟩ := validTargets_total hd (he e (h2.mem_iff.1 hee)) e.targets
    unfold keepOne
    rw [hts]
    exact ⟨_, rfl⟩)
  rw [hr]
  exact ⟨_, rfl⟩

theorem finish_total {rb : RotationBuilder} (hd : ∀ ws, rb.downtime ≠ .tuple ws)
    {as : List NewEvent} (hev : rb.events = as.foldl Events.push {}) (ha : ∀ a ∈ as, EventOk a) :
    ∃ rb', finish rb = .ok rb' := by
  have hok : rb.events.Ok := by
    rw [hev]
    exact (pushes_empty as).1
  have hq : ∀ e ∈ rb.events.q, ∃ r, e.skill.getDamageSpec e.modifier = .ok r := by
    intro e he
    rw [hev] at he
    obtain ⟨a, h1, h2⟩ := mem_pushes he
    rw [h2.2.2.1, h2.2.2.2.1]
    exact ha a h1
  have hfin : ∀ x : Events × List Press, x.1.Ok →
      (∀ e ∈ x.1.q, ∃ r, e.skill.getDamageSpec e.modifier = .ok r) →
      ∃ out, (rb.removeLoop x.1.q.length x.1 {} >>= fun events =>
        (pure (events, sortBy (·.t) x.2) : Py (Events × List Press))) = .ok out := by
    intro x h1 h2
    obtain ⟨r, hr⟩ := removeLoop_total hd h1 h2
    rw [hr]
    exact ⟨_, rfl⟩
  rw [finish_eq]
  suffices ∃ out, rb.finishOut = .ok out by
    obtain ⟨out, h⟩ := this
    rw [h]
    exact ⟨_, rfl⟩
  unfold finishOut
  by_cases hf : rb.fightStart.isNone = true
  · simp only [hf, if_true]
    obtain ⟨first, h1, -⟩ := firstDamage_fold rb.events.q none hq
    have h1 : rb.events.getFirstDamageTime = .ok first := h1
    rw [h1, Py.ok_bind]
    cases first with
    | none =>
      simp only [Py.pure_eq, Py.ok_bind]
      exact hfin (rb.events, rb.presses) hok hq
    | some first =>
      obtain ⟨out, -, h2, -, h4⟩ := shiftLoop_spec first rb.events.q.length rb.events {} hok le_rfl
      simp only [h4, Py.pure_eq, Py.ok_bind]
      refine hfin ((out.map (shiftedEvent first)).foldl Events.push {}, _) (pushes_empty _).1 ?_
      intro e he
      obtain ⟨a, g1, g2⟩ := mem_pushes he
      obtain ⟨e0, g3, rfl⟩ := List.mem_map.1 g1
      rw [g2.2.2.1, g2.2.2.2.1]
      exact hq e0 (h2.mem_iff.1 g3)
  · simp only [hf, if_false, Bool.false_eq_true, Py.ok_bind]
    exact hfin (rb.events, rb.presses) hok hq

theorem start_downtime (rb : RotationBuilder) (ws : List Window) : rb.start.downtime ≠ .tuple ws := by
  unfold start processDowntimeWindows
  cases h : rb.downtime <;> simp [h]

/-- The events of the uses can be looked up. -/
theorem adds_ok {rb : RotationBuilder} (h : Sound P gauges rb) {l : Log} (hl : rb.queueLog = .ok l) :
    ∀ a ∈ l.adds, EventOk a := by
  obtain ⟨su, tu, order, rfl, h2, h3, h4, -⟩ := queueLog_spec hl
  intro a ha
  rw [logsOf_adds, List.mem_flatMap] at ha
  obtain ⟨u, hu, ha⟩ := ha
  obtain ⟨hv, hor⟩ := queue_use h2 h3 h4 hu
  have hf : Fine P gauges u.skill u.asked u.targets := by
    rcases hor with ⟨p, hp, -, e1, e2, -, e3⟩ | ⟨p, hp, -, -, e1, e2, -, e3⟩
    · rw [e1, e2, e3]
      exact h.seq p hp
    · rw [e1, e2, e3]
      exact h.timed p hp
  rcases List.mem_cons.1 ha with rfl | ha
  · exact hf.playable.harmless.damage _ hv.conds
  · obtain ⟨fi, hfi, rfl⟩ := List.mem_map.1 ha
    obtain ⟨fs, h5, h6⟩ := hf.playable.followUps _ hv.conds
    rw [hv.followUps] at h5
    cases h5
    have := List.fst_mem_of_mem_zipIdx (List.mem_filter.1 hfi).1
    exact (h6 _ this).damage {} (Finset.Subset.refl _)

/-- Presses and dots can be processed, and the damage of their events can be looked up. -/
theorem collected_total {rb : RotationBuilder} (h : Sound P gauges rb) (hd : DotsOk rb.qDot)
    (hn : ∀ p ∈ rb.qTimed, ∀ q ∈ rb.qTimed, p.t = q.t → p.skill.name = q.skill.name → p.skill = q.skill) :
    ∃ l as, rb.start.queueLog = .ok l ∧
      allDotAdds rb.snapDots (rb.start.apply l).lastFor (addDots rb.qDot l.dots) = .ok as ∧
      ∀ a ∈ l.adds ++ as, EventOk a := by
  obtain ⟨e1, e2, e3, e4, e5, e6, e7, e8, e9, e10, e11, e12, e13, e14, e15⟩ := start_fields rb
  obtain ⟨l, hl⟩ := queueLog_total (sound_start h) (by rw [e10]; exact hn)
  have hdots := queueLog_dots (sound_start h) hl
  have hd' := dotsOk_addDots hd hdots
  obtain ⟨as, has⟩ := allDotAdds_total (snap := rb.snapDots) (last := (rb.start.apply l).lastFor) hd'
  refine ⟨l, as, hl, has, ?_⟩
  intro a ha
  rcases List.mem_append.1 ha with ha | ha
  · exact adds_ok (sound_start h) hl a ha
  · obtain ⟨x, hx, dur, h1, h2, h3, -⟩ := mem_allDotAdds has ha
    have hm : a.modifier = {} := dotAdds_modifier has ha
    unfold EventOk
    rw [h3, hm]
    exact (hd'.1 x hx).2.2

/-! ### All builders -/

theorem dots_built {stats : Stats} {lib : SkillLibrary} {snapDots : Option ℚ} {a b : Bool}
    {fs : Option ℚ} {dt : RawDowntime} {tg : String} {rb₀ : RotationBuilder}
    (h0 : init stats lib snapDots a b fs dt tg = .ok rb₀) (ops : List BuilderOp) :
    ∀ rb, ops.foldlM BuilderOp.run rb₀ = .ok rb → Sound P gauges rb → DotsOk rb.qDot := by
  induction ops using List.reverseRecOn with
  | nil =>
    intro rb h _
    cases h
    unfold init at h0
    obtain ⟨p, _, h0⟩ := Py.bind_eq_ok.1 h0
    cases h0
    refine ⟨?_, by simp⟩
    rintro x ⟨td, htd, -⟩
    simp at htd
  | append_singleton ops op ih =>
    intro rb h hs
    rw [Py.foldlM_append] at h
    obtain ⟨rb1, h1, h2⟩ := Py.bind_eq_ok.1 h
    rw [Py.foldlM_cons] at h2
    obtain ⟨rb2, h3, h4⟩ := Py.bind_eq_ok.1 h2
    cases h4
    obtain ⟨f1, f2, f3, f4, f5, f6⟩ := op_frame h3
    have hs1 : Sound P gauges rb1 := by
      refine ⟨?_, hs.whole, hs.agree, ?_, ?_, ?_, fun p hp => hs.timed p (f4 p hp),
        fun p hp => hs.seq p (f5 p hp)⟩
      · rw [← f1]; exact hs.speed
      · rw [← f1, ← f2]; exact hs.settings
      · rw [← f1, ← f2]; exact hs.breakers
      · rw [← f3]; exact hs.start
    have hd := ih rb1 h1 hs1
    rcases f6 with f6 | ⟨l, hl, f6⟩
    · rw [f6]; exact hd
    · rw [f6]
      exact dotsOk_addDots hd (queueLog_dots (sound_start hs1) hl)

theorem autoSkill_of {rb : RotationBuilder} {skill : Skill} {delay : ℚ} (h : AutoSkill rb skill delay) :
    rb.autoSkill = .ok skill ∧ autoDelay skill = .ok delay := by
  obtain ⟨h1, ts, h2, rfl⟩ := h
  refine ⟨?_, by unfold autoDelay; rw [h2]⟩
  unfold autoSkill
  rcases h1 with ⟨h3, h4⟩ | ⟨h3, h4⟩
  · rw [h3, Py.ok_bind]
    exact h4
  · rw [h3, Py.ok_bind]
    exact h4

theorem sound_of {rb : RotationBuilder} (hb : Built rb) (h : PlayableRotation rb) :
    ∃ gauges, Sound (InPlay rb) gauges rb ∧ (rb.enableAutos = true → PlayableAutos gauges rb) := by
  obtain ⟨settings, h1, h2, h3, h4⟩ := h.presses
  have hi := built_inv hb
  have hwith : ∀ skill, Queued rb skill → Within (InPlay rb) skill := fun skill hq =>
    ⟨.inl ⟨skill, hq, .inl rfl⟩, fun m fs hfs f hf => .inl ⟨skill, hq, .inr ⟨m, fs, hfs, f, hf, rfl⟩⟩⟩
  refine ⟨Dict.keys settings, ⟨speedOk_of h.speed, ?_, h.agree, ⟨settings, h1, rfl⟩, h.breakers, h.start,
    ?_, ?_⟩, h4⟩
  · rintro k (⟨skill, hq, hk⟩ | ⟨he, skill, delay, hs, rfl⟩)
    · have hp : ∃ m, Playable (Dict.keys settings) m skill := by
        rcases hq with ⟨p, hp, rfl⟩ | ⟨p, hp, rfl⟩
        · exact ⟨_, h2 p hp⟩
        · exact ⟨_, h3 p hp⟩
      obtain ⟨m, hp⟩ := hp
      rcases hk with rfl | ⟨m, fs, hfs, f, hf, rfl⟩
      · exact hp.effects
      · exact hp.followUpEffects m fs hfs f hf
    · obtain ⟨skill', delay', h5, -, h6⟩ := (h4 he).auto
      have := (autoSkill_of hs).1.symm.trans (autoSkill_of h5).1
      cases this
      exact h6
  · exact fun p hp => ⟨h2 p hp, hwith _ (.inl ⟨p, hp, rfl⟩), h.bonus.1 p hp, (hi.timed p hp).1⟩
  · exact fun p hp => ⟨h3 p hp, hwith _ (.inr ⟨p, hp, rfl⟩), h.bonus.2 p hp, (hi.seq p hp).1⟩

end RotationBuilder

end Ama
