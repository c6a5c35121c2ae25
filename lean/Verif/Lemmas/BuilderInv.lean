import Verif.Lemmas.BuilderDots

/-!
# An invariant of all builders
-/

namespace Ama

open Spec

/-- The skill of the use is in the library. -/
def Use.InLib (lib : SkillLibrary) (u : Use) : Prop := ∃ name, lib.getSkill name u.jobClass = .ok u.skill

namespace RotationBuilder

/-- Holds for every builder made by public calls. -/
structure Inv (rb : RotationBuilder) : Prop where
  good : rb.events.Good
  timed : ∀ p ∈ rb.qTimed, p.targets ≠ [] ∧ ∃ name, rb.lib.getSkill name p.jobClass = .ok p.skill
  seq : ∀ p ∈ rb.qSequence, p.targets ≠ [] ∧ ∃ name, rb.lib.getSkill name p.jobClass = .ok p.skill
  dots : ∀ x, HasApp rb.qDot x → ∃ u : Use, u.Valid rb.stats ∧ u.InLib rb.lib ∧ x ∈ u.dots

theorem splitComma_ne_nil (l : List Char) : splitComma l ≠ [] := by
  induction l with
  | nil => simp [splitComma]
  | cons c l ih =>
    unfold splitComma
    split_ifs
    · simp
    · split <;> simp

theorem splitTargets_ne_nil (s : String) : splitTargets s ≠ [] := by
  unfold splitTargets
  simp [splitComma_ne_nil]

theorem addNext_ok {rb rb' : RotationBuilder} {name : String} {m : Option SkillModifier}
    {job : Option String} {n : ℕ} {targets : Option String}
    (h : rb.addNext name m job n targets = .ok rb') :
    ∃ skill, rb.lib.getSkill name (job.getD rb.stats.jobClass) = .ok skill ∧
      rb' = { rb with
        allTargets := rb.allTargets ∪ (splitTargets (targets.getD rb.defaultTarget)).toFinset
        qSequence := rb.qSequence ++ List.replicate n
          { skill := skill
            modifier := m.getD (rb.getDefaultSkillModifier skill (job.getD rb.stats.jobClass))
            jobClass := job.getD rb.stats.jobClass
            targets := splitTargets (targets.getD rb.defaultTarget) } } := by
  unfold addNext at h
  simp only [processTargets] at h
  obtain ⟨skill, h1, h⟩ := Py.bind_eq_ok.1 h
  cases h
  exact ⟨skill, h1, rfl⟩

theorem add_ok {rb rb' : RotationBuilder} {t : ℚ} {name : String} {m : Option SkillModifier}
    {job : Option String} {targets : Option String}
    (h : rb.add t name m job targets = .ok rb') :
    ∃ skill, rb.lib.getSkill name (job.getD rb.stats.jobClass) = .ok skill ∧
      rb' = { rb with
        allTargets := rb.allTargets ∪ (splitTargets (targets.getD rb.defaultTarget)).toFinset
        qTimed := rb.qTimed ++ [
          { t := pyInt (1000 * t)
            skill := skill
            modifier := m.getD (rb.getDefaultSkillModifier skill (job.getD rb.stats.jobClass))
            jobClass := job.getD rb.stats.jobClass
            targets := splitTargets (targets.getD rb.defaultTarget) }] } := by
  unfold add at h
  simp only [processTargets] at h
  obtain ⟨skill, h1, h⟩ := Py.bind_eq_ok.1 h
  cases h
  exact ⟨skill, h1, rfl⟩

/-- The uses of a run. -/
theorem run_uses {fuel : ℕ} {rb rb' : RotationBuilder} (hi : rb.Inv) (r : Run fuel rb rb') :
    ∃ su tu order, r.log = logsOf rb.stats (su ++ tu) ∧
      List.Forall₂ (UseOfSeq rb.stats) rb.qSequence su ∧
      List.Forall₂ (UseOfTimed rb.stats) order tu ∧ order.Perm rb.qTimed ∧
      order.Pairwise (fun a b => a.t ≤ b.t) ∧
      (∃ st st', SeqRun rb.stats st su st' ∧ st.currT = rb.fightStart.getD 0 ∧ st.nextGcd = ⊥) ∧
      ∀ u ∈ su ++ tu, u.Valid rb.stats ∧ u.InLib rb.lib := by
  obtain ⟨su, tu, order, h1, h2, h3, h4, h5, h6⟩ := queueLog_spec r.queue
  obtain ⟨e1, e2, e3, e4, e5, e6, e7, e8, e9, e10, e11, e12, e13, e14, e15⟩ := start_fields rb
  rw [e1] at h1 h2 h3 h6
  rw [e11] at h2
  rw [e10] at h4
  rw [e6] at h6
  refine ⟨su, tu, order, h1, h2, h3, h4, h5, h6, ?_⟩
  intro u hu
  obtain ⟨hv, h⟩ := queue_use h2 h3 h4 hu
  refine ⟨hv, ?_⟩
  rcases h with ⟨p, hp, hu⟩ | ⟨p, hp, hu⟩
  · obtain ⟨_, name, hn⟩ := hi.seq p hp
    exact ⟨name, by rw [hu.2.1, hu.2.2.2.1]; exact hn⟩
  · obtain ⟨_, name, hn⟩ := hi.timed p hp
    exact ⟨name, by rw [hu.2.2.1, hu.2.2.2.2.1]; exact hn⟩

/-- The recorded dot applications of a run. -/
theorem run_dots {fuel : ℕ} {rb rb' : RotationBuilder} (hi : rb.Inv) (r : Run fuel rb rb')
    {x : String × FollowUp × DotApp} (hx : HasApp (addDots rb.qDot r.log.dots) x) :
    ∃ u : Use, u.Valid rb.stats ∧ u.InLib rb.lib ∧ x ∈ u.dots := by
  rcases hasApp_addDots hx with hx | hx
  · exact hi.dots x hx
  · obtain ⟨su, tu, order, h1, _, _, _, _, _, h7⟩ := run_uses hi r
    rw [h1, logsOf_dots, List.mem_flatMap] at hx
    obtain ⟨u, hu, hx⟩ := hx
    exact ⟨u, (h7 u hu).1, (h7 u hu).2, hx⟩

theorem inv_timing {fuel : ℕ} {rb rb' : RotationBuilder} (hi : rb.Inv)
    (h : rb.getSkillTiming fuel = .ok rb') : rb'.Inv := by
  obtain ⟨r⟩ := run_of_ok h
  obtain ⟨δ, _, _, _, _, h5, h6⟩ := r.spec
  obtain ⟨e1, e2, e3, e4, e5, e6, e7, e8, e9, e10, e11, e12, e13, e14, e15⟩ := start_fields rb
  have hl : r.collected.lib = rb.lib := e2
  have hs : r.collected.stats = rb.stats := e1
  have hqt : r.collected.qTimed = rb.qTimed := e10
  have hqs : r.collected.qSequence = rb.qSequence := e11
  have hqd : r.collected.qDot = addDots rb.qDot r.log.dots := by
    change addDots rb.start.qDot r.log.dots = _
    rw [e12]
  refine ⟨h5, ?_, ?_, ?_⟩
  · rw [h6]
    change ∀ p ∈ r.collected.qTimed, p.targets ≠ [] ∧
      ∃ name, r.collected.lib.getSkill name p.jobClass = .ok p.skill
    rw [hqt, hl]
    exact hi.timed
  · rw [h6]
    change ∀ p ∈ r.collected.qSequence, p.targets ≠ [] ∧
      ∃ name, r.collected.lib.getSkill name p.jobClass = .ok p.skill
    rw [hqs, hl]
    exact hi.seq
  · rw [h6]
    change ∀ x, HasApp r.collected.qDot x → ∃ u : Use, u.Valid r.collected.stats ∧
      u.InLib r.collected.lib ∧ x ∈ u.dots
    rw [hqd, hs, hl]
    exact fun x hx => run_dots hi r hx

theorem inv_init {stats : Stats} {lib : SkillLibrary} {snapDots : Option ℚ} {a b : Bool}
    {fs : Option ℚ} {dt : RawDowntime} {tg : String} {rb : RotationBuilder}
    (h : init stats lib snapDots a b fs dt tg = .ok rb) : rb.Inv := by
  unfold init at h
  obtain ⟨p, _, h⟩ := Py.bind_eq_ok.1 h
  cases h
  refine ⟨Events.good_empty, ?_, ?_, ?_⟩
  · simp
  · simp
  · rintro x ⟨td, htd, _⟩
    simp at htd

theorem inv_op {rb rb' : RotationBuilder} (hi : rb.Inv) (op : BuilderOp)
    (h : op.run rb = .ok rb') : rb'.Inv := by
  cases op with
  | addNext name m job n targets =>
    obtain ⟨skill, h1, rfl⟩ := addNext_ok h
    refine ⟨hi.good, hi.timed, ?_, hi.dots⟩
    intro p hp
    rcases List.mem_append.1 hp with hp | hp
    · exact hi.seq p hp
    · rw [List.eq_of_mem_replicate hp]
      exact ⟨splitTargets_ne_nil _, name, h1⟩
  | add t name m job targets =>
    obtain ⟨skill, h1, rfl⟩ := add_ok h
    refine ⟨hi.good, ?_, hi.seq, hi.dots⟩
    intro p hp
    rcases List.mem_append.1 hp with hp | hp
    · exact hi.timed p hp
    · rw [List.mem_singleton.1 hp]
      exact ⟨splitTargets_ne_nil _, name, h1⟩
  | setTrailing b =>
    cases h
    exact ⟨hi.good, hi.timed, hi.seq, hi.dots⟩
  | setAutos b =>
    cases h
    exact ⟨hi.good, hi.timed, hi.seq, hi.dots⟩
  | timing fuel => exact inv_timing hi h

theorem built_inv {rb : RotationBuilder} (h : Built rb) : rb.Inv := by
  obtain ⟨stats, lib, sd, a, t, fs, dt, tg, rb0, ops, h0, h1⟩ := h
  exact Py.foldlM_inv (P := Inv) (inv_init h0) (fun s op s' _ hs h => inv_op hs op h) h1

/-! ## Snapshot and application times of uses -/

theorem getCastTime_nonneg {stats : Stats} {ts : Option TimingSpec} {m : SkillModifier}
    {buffs : StatusEffects} {c : ℚ} (h : getCastTime stats ts m buffs = .ok c) : 0 ≤ c := by
  unfold getCastTime at h
  split_ifs at h with hi
  · cases h
    exact le_rfl
  · cases ts with
    | none => cases h
    | some ts =>
      simp only at h
      have hfin : ∀ x : Py ℚ, (x >>= fun cast =>
          match buffs.flatCastTimeReduction with
          | ⊤ => (pure 0 : Py ℚ)
          | (y : ℚ) => pure (max 0 ((if ts.affectedByHasteBuffs = true then
              (Utils.truncateToDigit (cast * buffs.hasteTimeMult *
                (1 - stats.processed.traitHasteTimeReduction)) 2 : ℚ) else cast) - y))) = .ok c →
          0 ≤ c := by
        intro x hx
        obtain ⟨cast, _, hx⟩ := Py.bind_eq_ok.1 hx
        split at hx
        · cases hx
          exact le_rfl
        · cases hx
          exact le_max_left _ _
      cases hsp : ts.affectedBySpeedStat with
      | false =>
        simp only [hsp, Bool.false_eq_true, if_false] at h
        exact hfin (pure ts.baseCastTime) h
      | true =>
        simp only [hsp, if_true] at h
        obtain ⟨x, _, h⟩ := Py.bind_eq_ok.1 h
        exact hfin (pure (x : ℚ)) h

theorem use_snapshot_le {lib : SkillLibrary} (hlib : NonnegDelays lib) {stats : Stats} {u : Use}
    (hv : u.Valid stats) (hl : u.InLib lib) : u.snapshot ≤ u.application := by
  obtain ⟨name, hn⟩ := hl
  have hc := getCastTime_nonneg hv.cast
  have hsnap : u.snapshot ≤ u.t + u.cast := by
    unfold Use.snapshot GameConsts.DAMAGE_SNAPSHOT_TIME_BEFORE_CAST_FINISHES
    have : max 0 (u.cast - 500) ≤ u.cast := max_le hc (by linarith)
    linarith
  refine hsnap.trans ?_
  have happ := hv.application
  unfold applicationTimeOf at happ
  by_cases hi : u.modifier.ignoreApplicationDelay = true
  · rw [if_pos hi] at happ
    simp only [Except.ok.injEq] at happ
    rw [happ]
  · rw [if_neg hi] at happ
    cases hts : u.timing with
    | none =>
      rw [hts] at happ
      cases happ
    | some ts =>
      rw [hts] at happ
      simp only [Except.ok.injEq] at happ
      rw [← happ]
      have hd : 0 ≤ ts.applicationDelay := hlib name u.jobClass u.skill hn u.modifier ts
        (by rw [← hts]; exact hv.timing)
      split_ifs
      · have := le_max_left 0 (-GameConsts.DAMAGE_SNAPSHOT_TIME_BEFORE_CAST_FINISHES +
          ts.applicationDelay)
        linarith
      · linarith

end RotationBuilder

end Ama
